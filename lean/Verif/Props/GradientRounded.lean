import Verif.GradientRounded
import Verif.Props.DoubleLib
import Verif.Props.Candidate

/-!
# Property C109: gradients and masks in floating point
-/

set_option linter.unusedSectionVars false

namespace Beyonce
open Spec Real

/-! ## Exact arithmetic is the model without rounding -/

section
variable {K : Type} [Field K] [LinearOrder K] [RealFns K]

theorem diskGradient_exact (p dx dy s fx fy : XF K) :
    GeometryRounded.diskGradient .exact p dx dy s fx fy = Geometry.diskGradient p dx dy s fx fy := by
  simp only [GeometryRounded.diskGradient, Geometry.diskGradient, FloatLib.sub, FloatLib.mul, FloatLib.sq,
    FloatLib.add, FloatLib.div, FloatLib.sinX, FloatLib.arctan2X, XF.sq]
  simp only [FloatLib.exact, round_same]
  rfl

theorem orbitalScale_exact (l v : XF K) :
    GeometryRounded.orbitalScale .exact l v = Geometry.orbitalScale l v := by
  simp only [GeometryRounded.orbitalScale, Geometry.orbitalScale, FloatLib.sub, FloatLib.mul, FloatLib.add,
    FloatLib.div]
  simp only [FloatLib.exact, round_same]
  rfl

end

/-! ## The direction of the edge -/

/-- The |sin| of the angle between the vector `(d, n)` and the x axis. -/
noncomputable def Spec.steep (n d : ℝ) : ℝ := |n| / √(n ^ 2 + d ^ 2)

theorem steep_near {n d n' d' e : ℝ} (h : |n' - n| + |d' - d| ≤ e) (h0 : 0 < n ^ 2 + d ^ 2)
    (h0' : 0 < n' ^ 2 + d' ^ 2) : |steep n' d' - steep n d| ≤ 2 * e / √(n ^ 2 + d ^ 2) := by
  have hN := sqrt_pos.2 h0
  have hN' := sqrt_pos.2 h0'
  have hd : |√(n' ^ 2 + d' ^ 2) - √(n ^ 2 + d ^ 2)| ≤ e := (norm2_near (n', d') (n, d)).trans h
  have hn : |n'| ≤ √(n' ^ 2 + d' ^ 2) := fst_le_norm2 (n', d')
  unfold steep
  generalize √(n ^ 2 + d ^ 2) = N at *
  generalize √(n' ^ 2 + d' ^ 2) = N' at *
  rw [div_sub_div _ _ hN'.ne' hN.ne', abs_div, abs_of_pos (mul_pos hN' hN), div_le_div_iff₀ (mul_pos hN' hN) hN]
  have e1 : |n'| * N - N' * |n| = N' * (|n'| - |n|) - |n'| * (N' - N) := by ring
  have e2 : |(|n'| * N - N' * |n|)| ≤ N' * (2 * e) := by
    rw [e1]
    refine (abs_sub _ _).trans ?_
    rw [abs_mul, abs_mul, abs_of_pos hN', abs_abs]
    have k1 : |(|n'| - |n|)| ≤ e := (abs_abs_sub_abs_le n' n).trans (by linarith [abs_nonneg (d' - d)])
    have k2 := mul_le_mul_of_nonneg_left k1 hN'.le
    have k3 : |n'| * |N' - N| ≤ N' * e := mul_le_mul hn hd (abs_nonneg _) hN'.le
    linarith
  have := mul_le_mul_of_nonneg_right e2 hN.le
  linarith

theorem steep_tangent (n d : ℝ) (h : d ≠ 0) : |sin (Complex.arg ⟨1, n / d⟩)| = steep n d := by
  have h0 : 0 < n ^ 2 + d ^ 2 := by positivity
  unfold steep
  rw [abs_sin_arg, abs_div, div_pow, show 1 + n ^ 2 / d ^ 2 = (n ^ 2 + d ^ 2) / d ^ 2 by field_simp; ring,
    sqrt_div h0.le, sqrt_sq_eq_abs]
  have := abs_pos.2 h
  have := sqrt_pos.2 h0
  field_simp

theorem steep_one (t : ℝ) : |sin (Complex.arg ⟨1, t⟩)| = steep t 1 := by
  have := steep_tangent t 1 one_ne_zero
  rwa [div_one] at this

theorem steep_same (n d : ℝ) (h : d ≠ 0) : steep (n / d) 1 = steep n d := by
  rw [← steep_one, steep_tangent n d h]

/-! ## The numerator and the denominator -/

theorem rounded_sum {f : ℝ → ℝ} {u k : ℝ} (hr : Rounds f u) (hu : 0 ≤ u) (hk : k * u ≤ 1) {p q P Q : ℝ}
    (hp : RelNear (k * u) p P) (hq : RelNear (k * u) q Q) :
    |f (p + q) - (P + Q)| ≤ (k + 2) * u * (|P| + |Q|) := by
  have h1 : |p - P| ≤ k * u * |P| := hp
  have h2 : |q - Q| ≤ k * u * |Q| := hq
  have hP := abs_nonneg P
  have hQ := abs_nonneg Q
  have h3 : |(p + q) - (P + Q)| ≤ k * u * (|P| + |Q|) := by
    rw [show (p + q) - (P + Q) = (p - P) + (q - Q) by ring]
    refine (abs_add_le _ _).trans ?_
    linarith
  have h5 : |p + q| ≤ 2 * (|P| + |Q|) := by
    have e1 := abs_sub_abs_le_abs_sub (p + q) (P + Q)
    have e2 := abs_add_le P Q
    have e3 := mul_le_mul_of_nonneg_right hk (add_nonneg hP hQ)
    linarith
  have h6 := abs_sub_le (f (p + q)) (p + q) (P + Q)
  have h7 := hr (p + q)
  have h8 := mul_le_mul_of_nonneg_left h5 hu
  linarith

theorem RelNear.neg {a x y : ℝ} (h : RelNear a x y) : RelNear a (-x) (-y) := by
  have := h.mul_left (-1)
  simpa using this

theorem RelNear.add {a x y z w : ℝ} (h : RelNear a x y) (h' : RelNear a z w) (hy : 0 ≤ y) (hw : 0 ≤ w) :
    RelNear a (x + z) (y + w) := by
  have h1 : |x - y| ≤ a * |y| := h
  have h2 : |z - w| ≤ a * |w| := h'
  rw [abs_of_nonneg hy] at h1
  rw [abs_of_nonneg hw] at h2
  unfold RelNear
  rw [abs_of_nonneg (add_nonneg hy hw), show x + z - (y + w) = (x - y) + (z - w) by ring]
  refine (abs_add_le _ _).trans ?_
  linarith

/-- The sizes of the four terms that the code adds up in numerator and denominator. -/
noncomputable def Spec.terms (p dx dy fx fy s : ℝ) : ℝ :=
  |s * fy ^ 2 * dy| + |fy ^ 2 * (p - dx)| + (|(s ^ 2 * fy ^ 2 + fx ^ 2) * dy| + |s * fy ^ 2 * (p - dx)|)

/-- The length of the vector along the edge that they add up to. -/
noncomputable def Spec.edgeLength (p dy fx fy s : ℝ) : ℝ :=
  √((fy ^ 2 * p) ^ 2 + (s * fy ^ 2 * p - fx ^ 2 * dy) ^ 2)

/-- The condition number of a gradient. -/
noncomputable def Spec.fuzz (p dx dy fx fy s : ℝ) : ℝ := terms p dx dy fx fy s / edgeLength p dy fx fy s

/-- The computed numerator and denominator. -/
theorem parts_near {L : FloatLib ℝ} {u : ℝ} (hL : Accurate L u) (hu1 : 100 * u ≤ 1) (p dx dy fx fy s s' : ℝ)
    (hs : RelNear u s' s) (hsd : s * dy = -dx) :
    |L.rnd (L.rnd (L.rnd (-s' * L.rnd (fy * fy)) * -dy) - L.rnd (L.rnd (fy * fy) * L.rnd (p - dx))) -
        -(fy ^ 2 * p)| +
      |L.rnd (L.rnd (L.rnd (L.rnd (L.rnd (s' * s') * L.rnd (fy * fy)) + L.rnd (fx * fx)) * -dy) +
          L.rnd (L.rnd (s' * L.rnd (fy * fy)) * L.rnd (p - dx))) - (s * fy ^ 2 * p - fx ^ 2 * dy)| ≤
      15 * u * terms p dx dy fx fy s := by
  have hu := hL.nonneg
  have hr := hL.rnd
  have hF : RelNear (1 * u) (L.rnd (fy * fy)) (fy ^ 2) := by rw [sq]; exact RelNear.rnd_self hr _
  have hX : RelNear (1 * u) (L.rnd (p - dx)) (p - dx) := RelNear.rnd_self hr _
  have hs1 : RelNear (1 * u) s' s := by rw [one_mul]; exact hs
  have hs2 : RelNear (1 * u) (-s') (-s) := RelNear.neg hs1
  have a1 : RelNear (3 * u) (-s' * L.rnd (fy * fy)) (-s * fy ^ 2) :=
    hs2.mul hF hu (by norm_num) (by norm_num) (by linarith) (by norm_num)
  have a2 : RelNear (5 * u) (L.rnd (-s' * L.rnd (fy * fy))) (-s * fy ^ 2) :=
    a1.rnd hr hu (by linarith) (by norm_num)
  have a3 : RelNear (7 * u) (L.rnd (L.rnd (-s' * L.rnd (fy * fy)) * -dy)) (-s * fy ^ 2 * -dy) :=
    (a2.mul_right (-dy)).rnd hr hu (by linarith) (by norm_num)
  have b1 : RelNear (3 * u) (L.rnd (fy * fy) * L.rnd (p - dx)) (fy ^ 2 * (p - dx)) :=
    hF.mul hX hu (by norm_num) (by norm_num) (by linarith) (by norm_num)
  have b2 : RelNear (5 * u) (L.rnd (L.rnd (fy * fy) * L.rnd (p - dx))) (fy ^ 2 * (p - dx)) :=
    b1.rnd hr hu (by linarith) (by norm_num)
  have n := rounded_sum hr hu (k := 13) (by linarith) (a3.mono (by linarith)) (RelNear.neg (b2.mono (b := 13 * u) (by linarith)))
  have c1 : RelNear (3 * u) (s' * s') (s * s) :=
    hs1.mul hs1 hu (by norm_num) (by norm_num) (by linarith) (by norm_num)
  have c2 : RelNear (5 * u) (L.rnd (s' * s')) (s ^ 2) := by
    rw [sq]; exact c1.rnd hr hu (by linarith) (by norm_num)
  have c3 : RelNear (7 * u) (L.rnd (s' * s') * L.rnd (fy * fy)) (s ^ 2 * fy ^ 2) :=
    c2.mul hF hu (by norm_num) (by norm_num) (by linarith) (by norm_num)
  have c4 : RelNear (9 * u) (L.rnd (L.rnd (s' * s') * L.rnd (fy * fy))) (s ^ 2 * fy ^ 2) :=
    c3.rnd hr hu (by linarith) (by norm_num)
  have hG : RelNear (1 * u) (L.rnd (fx * fx)) (fx ^ 2) := by rw [sq]; exact RelNear.rnd_self hr _
  have c5 := RelNear.add c4 (hG.mono (b := 9 * u) (by linarith)) (by positivity) (by positivity)
  have c6 : RelNear (11 * u) _ (s ^ 2 * fy ^ 2 + fx ^ 2) := c5.rnd hr hu (by linarith) (by norm_num)
  have c7 : RelNear (13 * u) _ ((s ^ 2 * fy ^ 2 + fx ^ 2) * -dy) :=
    (c6.mul_right (-dy)).rnd hr hu (by linarith) (by norm_num)
  have d1 : RelNear (3 * u) (s' * L.rnd (fy * fy)) (s * fy ^ 2) :=
    hs1.mul hF hu (by norm_num) (by norm_num) (by linarith) (by norm_num)
  have d2 : RelNear (5 * u) (L.rnd (s' * L.rnd (fy * fy))) (s * fy ^ 2) :=
    d1.rnd hr hu (by linarith) (by norm_num)
  have d3 : RelNear (7 * u) (L.rnd (s' * L.rnd (fy * fy)) * L.rnd (p - dx)) (s * fy ^ 2 * (p - dx)) :=
    d2.mul hX hu (by norm_num) (by norm_num) (by linarith) (by norm_num)
  have d4 : RelNear (9 * u) (L.rnd (L.rnd (s' * L.rnd (fy * fy)) * L.rnd (p - dx))) (s * fy ^ 2 * (p - dx)) :=
    d3.rnd hr hu (by linarith) (by norm_num)
  have d := rounded_sum hr hu (k := 13) (by linarith) c7 (d4.mono (by linarith))
  rw [show -s * fy ^ 2 * -dy + -(fy ^ 2 * (p - dx)) = -(fy ^ 2 * p) by linear_combination fy ^ 2 * hsd,
    ← sub_eq_add_neg] at n
  rw [show (s ^ 2 * fy ^ 2 + fx ^ 2) * -dy + s * fy ^ 2 * (p - dx) = s * fy ^ 2 * p - fx ^ 2 * dy by
    linear_combination -s * fy ^ 2 * hsd] at d
  have e1 : |-s * fy ^ 2 * -dy| = |s * fy ^ 2 * dy| := by congr 1; ring
  have e2 : |(s ^ 2 * fy ^ 2 + fx ^ 2) * -dy| = |(s ^ 2 * fy ^ 2 + fx ^ 2) * dy| := by rw [mul_neg, abs_neg]
  rw [e1, abs_neg] at n
  rw [e2] at d
  unfold terms
  norm_num at n d ⊢
  linarith

theorem edge_pos {p dy fx fy s : ℝ} (hx : 0 < fx) (hy : 0 < fy) (h : p ≠ 0 ∨ dy ≠ 0) :
    0 < (fy ^ 2 * p) ^ 2 + (s * fy ^ 2 * p - fx ^ 2 * dy) ^ 2 := by
  by_cases hp : p = 0
  · have := h.resolve_left (fun g => g hp)
    subst hp
    have : 0 < (fx ^ 2 * dy) ^ 2 := by positivity
    nlinarith
  · have : 0 < (fy ^ 2 * p) ^ 2 := by positivity
    positivity

theorem length_le_terms (p dx dy fx fy s : ℝ) (hsd : s * dy = -dx) :
    edgeLength p dy fx fy s ≤ terms p dx dy fx fy s := by
  have h : edgeLength p dy fx fy s ≤ |fy ^ 2 * p| + |s * fy ^ 2 * p - fx ^ 2 * dy| := by
    unfold edgeLength
    refine sqrt_le_iff.2 ⟨by positivity, ?_⟩
    rw [← sq_abs (fy ^ 2 * p), ← sq_abs (s * fy ^ 2 * p - fx ^ 2 * dy)]
    nlinarith [abs_nonneg (fy ^ 2 * p), abs_nonneg (s * fy ^ 2 * p - fx ^ 2 * dy)]
  refine h.trans (add_le_add ?_ ?_)
  · rw [show fy ^ 2 * p = -(s * fy ^ 2 * dy) + fy ^ 2 * (p - dx) by linear_combination fy ^ 2 * hsd]
    refine (abs_add_le _ _).trans ?_
    rw [abs_neg]
  · rw [show s * fy ^ 2 * p - fx ^ 2 * dy = -((s ^ 2 * fy ^ 2 + fx ^ 2) * dy) + s * fy ^ 2 * (p - dx) by
      linear_combination s * fy ^ 2 * hsd]
    refine (abs_add_le _ _).trans ?_
    rw [abs_neg]

/-- The exact gradient. -/
theorem gradient_eq (p dx dy fx fy : ℝ) (h : dy ≠ 0 ∨ dx = 0) :
    Geometry.diskGradient (.fin p) (.fin dx) (.fin dy) (Geometry.shear (.fin dx) (.fin dy)) (.fin fx) (.fin fy) =
      if shearOf dx dy * fy ^ 2 * p - fx ^ 2 * dy = 0 then .nan
      else .fin (steep (-(fy ^ 2 * p)) (shearOf dx dy * fy ^ 2 * p - fx ^ 2 * dy)) := by
  have hsd := shearOf_mul dx dy h
  rw [shear_ok dx dy h]
  generalize shearOf dx dy = s at *
  unfold Geometry.diskGradient
  simp only [XF.sub_fin, XF.neg_fin, XF.sq_fin, XF.mul_fin, XF.add_fin, XF.eqb_fin]
  rw [show -s * (fy * fy) * -dy - fy * fy * (p - dx) = -(fy ^ 2 * p) by linear_combination fy ^ 2 * hsd,
    show (s * s * (fy * fy) + fx * fx) * -dy + s * (fy * fy) * (p - dx) = s * fy ^ 2 * p - fx ^ 2 * dy by
      linear_combination -s * fy ^ 2 * hsd]
  by_cases h0 : s * fy ^ 2 * p - fx ^ 2 * dy = 0
  · rw [if_pos h0, h0]
    simp [XF.arctan2, XF.sin, XF.abs]
  · rw [if_neg h0]
    have : decide (s * fy ^ 2 * p - fx ^ 2 * dy = 0) = false := by
      rw [decide_eq_false_iff_not]; exact h0
    rw [this]
    simp only [Bool.not_false, if_true]
    rw [XF.div_fin _ _ h0, XF.arctan2_fin, XF.sin_fin, XF.abs_fin, steep_tangent _ _ h0]

/-- The computed gradient: NaN only if the edge is nearly vertical, else near the |sin| of the angle. -/
theorem gradient_near {L : FloatLib ℝ} {u : ℝ} (hL : Accurate L u) (hu1 : 100 * u ≤ 1) (p dx dy fx fy : ℝ)
    (hx : 0 < fx) (hy : 0 < fy) (h : dy ≠ 0 ∨ dx = 0) (hp : p ≠ 0 ∨ dy ≠ 0) :
    (GeometryRounded.diskGradient L (.fin p) (.fin dx) (.fin dy) (GeometryRounded.shear L (.fin dx) (.fin dy))
        (.fin fx) (.fin fy) = .nan ∧
      |shearOf dx dy * fy ^ 2 * p - fx ^ 2 * dy| ≤ 15 * u * terms p dx dy fx fy (shearOf dx dy)) ∨
    ∃ g, GeometryRounded.diskGradient L (.fin p) (.fin dx) (.fin dy)
        (GeometryRounded.shear L (.fin dx) (.fin dy)) (.fin fx) (.fin fy) = .fin g ∧
      |g - steep (-(fy ^ 2 * p)) (shearOf dx dy * fy ^ 2 * p - fx ^ 2 * dy)| ≤
        35 * u * fuzz p dx dy fx fy (shearOf dx dy) := by
  have hu := hL.nonneg
  obtain ⟨s', e1, n1⟩ := shear_near hL dx dy h
  have hsd := shearOf_mul dx dy h
  rw [e1]
  generalize shearOf dx dy = s at *
  have hpos := edge_pos (s := s) hx hy hp
  have hlen := length_le_terms p dx dy fx fy s hsd
  have hparts := parts_near hL hu1 p dx dy fx fy s s' n1 hsd
  have hH : 0 < edgeLength p dy fx fy s := sqrt_pos.2 hpos
  unfold GeometryRounded.diskGradient
  simp only [L.sub_fin, XF.neg_fin, L.sq_fin, L.mul_fin, L.add_fin, XF.eqb_fin]
  generalize L.rnd (L.rnd (L.rnd (-s' * L.rnd (fy * fy)) * -dy) - L.rnd (L.rnd (fy * fy) * L.rnd (p - dx))) = n' at *
  generalize L.rnd (L.rnd (L.rnd (L.rnd (L.rnd (s' * s') * L.rnd (fy * fy)) + L.rnd (fx * fx)) * -dy) +
          L.rnd (L.rnd (s' * L.rnd (fy * fy)) * L.rnd (p - dx))) = d' at *
  by_cases h0 : d' = 0
  · left
    constructor
    · rw [h0]; simp [FloatLib.arctan2X, FloatLib.sinX, XF.arctan2, XF.sin, XF.abs]
    · rw [h0, zero_sub, abs_neg] at hparts
      linarith [abs_nonneg (n' - -(fy ^ 2 * p))]
  · right
    have hdec : decide (d' = 0) = false := by rw [decide_eq_false_iff_not]; exact h0
    rw [hdec]
    simp only [Bool.not_false, if_true]
    rw [L.div_fin _ _ h0, L.arctan2_fin, L.sin_fin, XF.abs_fin]
    refine ⟨_, rfl, ?_⟩
    -- the tangent
    have ht : |L.rnd (n' / d') - n' / d'| ≤ u * |n' / d'| := hL.rnd _
    have k1 : |steep (L.rnd (n' / d')) 1 - steep (n' / d') 1| ≤ 2 * u := by
      have hq : 0 < (n' / d') ^ 2 + 1 ^ 2 := by positivity
      refine (steep_near (e := u * |n' / d'|) (by rw [sub_self, abs_zero, add_zero]; exact ht) hq
        (by positivity)).trans ?_
      rw [div_le_iff₀ (sqrt_pos.2 hq)]
      have : |n' / d'| ≤ √((n' / d') ^ 2 + 1 ^ 2) := fst_le_norm2 (n' / d', 1)
      have := mul_le_mul_of_nonneg_left this hu
      linarith
    have k2 : |steep n' d' - steep (-(fy ^ 2 * p)) (s * fy ^ 2 * p - fx ^ 2 * dy)| ≤
        30 * u * fuzz p dx dy fx fy s := by
      have hpos' : 0 < (-(fy ^ 2 * p)) ^ 2 + (s * fy ^ 2 * p - fx ^ 2 * dy) ^ 2 := by rw [neg_sq]; exact hpos
      refine (steep_near hparts hpos' (by positivity)).trans (le_of_eq ?_)
      unfold fuzz edgeLength
      rw [neg_sq]
      ring
    rw [steep_same n' d' h0] at k1
    -- the sine
    generalize L.rnd (n' / d') = t at *
    have k3 : |L.arctan2 t 1 - Complex.arg ⟨1, t⟩| ≤ u * |Complex.arg ⟨1, t⟩| := hL.arctan2 t 1
    have k4 : |Complex.arg ⟨1, t⟩| ≤ 1.6 := by
      have := Complex.abs_arg_le_pi_div_two_iff.2 (show (0 : ℝ) ≤ (⟨1, t⟩ : ℂ).re by norm_num)
      have := pi_lt_d2
      linarith
    have k5 := sin_near (L.arctan2 t 1) (Complex.arg ⟨1, t⟩)
    have k6 : |L.sin (L.arctan2 t 1) - sin (L.arctan2 t 1)| ≤ u * |sin (L.arctan2 t 1)| := hL.sin _
    have k7 := abs_sin_le_one (L.arctan2 t 1)
    have k8 : |(|L.sin (L.arctan2 t 1)| - |sin (Complex.arg ⟨1, t⟩)|)| ≤ 2.6 * u := by
      refine (abs_abs_sub_abs_le _ _).trans ((abs_sub_le _ (sin (L.arctan2 t 1)) _).trans ?_)
      have j1 := mul_le_mul_of_nonneg_left k4 hu
      have j2 := mul_le_mul_of_nonneg_left k7 hu
      linarith
    rw [steep_one] at k8
    have hf : 1 ≤ fuzz p dx dy fx fy s := (one_le_div hH).2 hlen
    have hf' : u ≤ u * fuzz p dx dy fx fy s := by nlinarith
    have l1 := abs_sub_le |L.sin (L.arctan2 t 1)| (steep t 1) (steep n' d')
    have l2 := abs_sub_le |L.sin (L.arctan2 t 1)| (steep n' d')
      (steep (-(fy ^ 2 * p)) (s * fy ^ 2 * p - fx ^ 2 * dy))
    linarith

theorem steep_flat (n d : ℝ) (h : 0 < n ^ 2 + d ^ 2) : √(1 - steep n d ^ 2) = steep d n := by
  unfold steep
  rw [div_pow, sq_sqrt h.le, sq_abs, show 1 - n ^ 2 / (n ^ 2 + d ^ 2) = d ^ 2 / (n ^ 2 + d ^ 2) by
    field_simp; ring, sqrt_div (sq_nonneg d), sqrt_sq_eq_abs, add_comm (d ^ 2)]

/-- C109 (partial): the computed gradient is the true one up to `35 u` times its condition number.  Missing:
edges that are vertical up to the rounding error, where it may be NaN (`C109_false`). -/
theorem C109_gradient_partial (L : FloatLib ℝ) (u : ℝ) (hL : Accurate L u) (hu1 : 100 * u ≤ 1)
    (p dx dy fx fy g : ℝ) (hx : 0 < fx) (hy : 0 < fy) (h : dy ≠ 0 ∨ dx = 0)
    (hg : Geometry.diskGradient (.fin p) (.fin dx) (.fin dy) (Geometry.shear (.fin dx) (.fin dy)) (.fin fx)
      (.fin fy) = .fin g)
    (hv : 15 * u * fuzz p dx dy fx fy (shearOf dx dy) < √(1 - g ^ 2)) :
    ∃ g', GeometryRounded.diskGradient L (.fin p) (.fin dx) (.fin dy)
        (GeometryRounded.shear L (.fin dx) (.fin dy)) (.fin fx) (.fin fy) = .fin g' ∧
      |g' - g| ≤ 35 * u * fuzz p dx dy fx fy (shearOf dx dy) := by
  rw [gradient_eq p dx dy fx fy h] at hg
  by_cases h0 : shearOf dx dy * fy ^ 2 * p - fx ^ 2 * dy = 0
  · rw [if_pos h0] at hg; cases hg
  rw [if_neg h0] at hg
  injection hg with hg
  have hp : p ≠ 0 ∨ dy ≠ 0 := by
    by_contra hc
    push Not at hc
    exact h0 (by rw [hc.1, hc.2]; ring)
  rcases gradient_near hL hu1 p dx dy fx fy hx hy h hp with ⟨-, hn⟩ | ⟨g', e, n⟩
  · exfalso
    have hpos := edge_pos (s := shearOf dx dy) hx hy hp
    rw [← hg, steep_flat _ _ (by rw [neg_sq]; exact hpos)] at hv
    unfold steep fuzz edgeLength at hv
    rw [neg_sq, add_comm ((shearOf dx dy * fy ^ 2 * p - fx ^ 2 * dy) ^ 2), ← mul_div_assoc,
      div_lt_div_iff_of_pos_right (sqrt_pos.2 hpos)] at hv
    linarith
  · exact ⟨g', e, hg ▸ n⟩

/-- **C109** Where the edge is vertical, so that the true gradient is undefined, the computed one is NaN or
near 1. -/
theorem C109_vertical (L : FloatLib ℝ) (u : ℝ) (hL : Accurate L u) (hu1 : 100 * u ≤ 1)
    (p dx dy fx fy : ℝ) (hx : 0 < fx) (hy : 0 < fy) (h : dy ≠ 0 ∨ dx = 0) (hp : p ≠ 0 ∨ dy ≠ 0)
    (hg : Geometry.diskGradient (.fin p) (.fin dx) (.fin dy) (Geometry.shear (.fin dx) (.fin dy)) (.fin fx)
      (.fin fy) = .nan) :
    GeometryRounded.diskGradient L (.fin p) (.fin dx) (.fin dy)
        (GeometryRounded.shear L (.fin dx) (.fin dy)) (.fin fx) (.fin fy) = .nan ∨
    ∃ g', GeometryRounded.diskGradient L (.fin p) (.fin dx) (.fin dy)
        (GeometryRounded.shear L (.fin dx) (.fin dy)) (.fin fx) (.fin fy) = .fin g' ∧
      |g' - 1| ≤ 35 * u * fuzz p dx dy fx fy (shearOf dx dy) := by
  rw [gradient_eq p dx dy fx fy h] at hg
  by_cases h0 : shearOf dx dy * fy ^ 2 * p - fx ^ 2 * dy = 0
  · rcases gradient_near hL hu1 p dx dy fx fy hx hy h hp with ⟨hn, -⟩ | ⟨g', e, n⟩
    · exact Or.inl hn
    · refine Or.inr ⟨g', e, ?_⟩
      have hpos := edge_pos (s := shearOf dx dy) hx hy hp
      have h1 : steep (-(fy ^ 2 * p)) (shearOf dx dy * fy ^ 2 * p - fx ^ 2 * dy) = 1 := by
        rw [h0] at hpos ⊢
        unfold steep
        rw [zero_pow two_ne_zero, add_zero] at hpos ⊢
        rw [sqrt_sq_eq_abs, div_self]
        intro hz
        rw [abs_eq_zero, neg_eq_zero] at hz
        rw [hz, zero_pow two_ne_zero] at hpos
        exact lt_irrefl _ hpos
      rwa [h1] at n
  · rw [if_neg h0] at hg; cases hg

/-! ## What the measurement asks for -/

theorem relNear_of_abs {a x y m : ℝ} (h : |x - y| ≤ a * m) (ha : 0 ≤ a) (hm : m ≤ y) (hm0 : 0 < m) :
    RelNear a x y := by
  unfold RelNear
  rw [abs_of_pos (by linarith : 0 < y)]
  exact h.trans (mul_le_mul_of_nonneg_left hm ha)

theorem orbital_near {L : FloatLib ℝ} {u : ℝ} (hL : Accurate L u) (hu1 : 1000 * u ≤ 1) (l v : ℝ) (l0 : 0 ≤ l)
    (l1 : l ≤ 1) (v0 : 0 < v) :
    ∃ k, GeometryRounded.orbitalScale L (.fin l) (.fin v) = .fin k ∧ RelNear (45 * u) k (orbitalFactor v l) := by
  have hu := hL.nonneg
  have hr := hL.rnd
  have hπ := pi_gt_d2
  have hπ' := pi_lt_d2
  -- numerator
  have a1 : RelNear (1 * u) (L.rnd (2 * l)) (2 * l) := RelNear.rnd_self hr _
  have a2 := rounded_sum hr hu (k := 1) (by linarith) (RelNear.refl 6 (by linarith : 0 ≤ 1 * u)) (RelNear.neg a1)
  rw [← sub_eq_add_neg, ← sub_eq_add_neg, abs_neg, abs_of_nonneg (by linarith : 0 ≤ 2 * l),
    abs_of_pos (by norm_num : (0 : ℝ) < 6)] at a2
  have a3 : RelNear (6 * u) (L.rnd (6 - L.rnd (2 * l))) (6 - 2 * l) := by
    refine relNear_of_abs (m := 4) (a2.trans ?_) (by linarith) (by linarith) (by norm_num)
    nlinarith
  -- denominator
  have b1 : RelNear (1 * u) (L.rnd (12 * l)) (12 * l) := RelNear.rnd_self hr _
  have b2 := rounded_sum hr hu (k := 1) (by linarith) (RelNear.refl 12 (by linarith : 0 ≤ 1 * u)) (RelNear.neg b1)
  rw [← sub_eq_add_neg, ← sub_eq_add_neg, abs_neg, abs_of_nonneg (by linarith : 0 ≤ 12 * l),
    abs_of_pos (by norm_num : (0 : ℝ) < 12)] at b2
  have b3 : |L.rnd (12 - L.rnd (12 * l)) - (12 - 12 * l)| ≤ 72 * u := by nlinarith
  have hpi : RelNear (1 * u) L.pi π := by rw [one_mul]; exact hL.pi
  have c1 : RelNear (3 * u) (L.rnd (3 * L.pi)) (3 * π) :=
    (hpi.mul_left 3).rnd hr hu (by linarith) (by norm_num)
  have c2 : RelNear (5 * u) (L.rnd (L.rnd (3 * L.pi) * l)) (3 * π * l) :=
    (c1.mul_right l).rnd hr hu (by linarith) (by norm_num)
  have c3 : |L.rnd (L.rnd (3 * L.pi) * l) - 3 * π * l| ≤ 48 * u := by
    have c : |L.rnd (L.rnd (3 * L.pi) * l) - 3 * π * l| ≤ 5 * u * |3 * π * l| := c2
    rw [abs_of_nonneg (by positivity : 0 ≤ 3 * π * l)] at c
    have : 3 * π * l ≤ 9.45 * 1 := mul_le_mul (by linarith) l1 l0 (by norm_num)
    nlinarith
  have hD : 9.4 ≤ 12 - 12 * l + 3 * π * l := by nlinarith
  have hD' : 12 - 12 * l + 3 * π * l ≤ 12 := by nlinarith
  have d1 : RelNear (15 * u) (L.rnd (L.rnd (12 - L.rnd (12 * l)) + L.rnd (L.rnd (3 * L.pi) * l)))
      (12 - 12 * l + 3 * π * l) := by
    generalize L.rnd (12 - L.rnd (12 * l)) = X at *
    generalize L.rnd (L.rnd (3 * L.pi) * l) = Y at *
    have e1 : |X + Y - (12 - 12 * l + 3 * π * l)| ≤ 120 * u := by
      rw [show X + Y - (12 - 12 * l + 3 * π * l) = (X - (12 - 12 * l)) + (Y - 3 * π * l) by ring]
      refine (abs_add_le _ _).trans ?_
      linarith
    have e2 := hr (X + Y)
    have e3 : |X + Y| ≤ 12.2 := by
      have := abs_sub_abs_le_abs_sub (X + Y) (12 - 12 * l + 3 * π * l)
      rw [abs_of_pos (by linarith : 0 < 12 - 12 * l + 3 * π * l)] at this
      linarith
    have e4 := abs_sub_le (L.rnd (X + Y)) (X + Y) (12 - 12 * l + 3 * π * l)
    have e5 := mul_le_mul_of_nonneg_left e3 hu
    refine relNear_of_abs (m := 9.4) ?_ (by linarith) hD (by norm_num)
    linarith
  have hpos : 0 < 12 - 12 * l + 3 * π * l := by linarith
  have dpos := d1.pos hpos (by linarith)
  have d2 := d1.inv hpos (by linarith) (by linarith)
  have q1 : RelNear (37 * u) (L.rnd (6 - L.rnd (2 * l)) *
      (1 / L.rnd (L.rnd (12 - L.rnd (12 * l)) + L.rnd (L.rnd (3 * L.pi) * l))))
      ((6 - 2 * l) * (1 / (12 - 12 * l + 3 * π * l))) :=
    a3.mul (b := 30) (d2.mono (by linarith)) hu (by norm_num) (by norm_num) (by linarith) (by norm_num)
  rw [mul_one_div, mul_one_div] at q1
  have q2 := q1.rnd (c := 39) hr hu (by linarith) (by norm_num)
  have r1 : RelNear (1 * u) (L.pi / v) (π / v) := by
    have := hpi.mul_right v⁻¹
    rwa [← div_eq_mul_inv, ← div_eq_mul_inv] at this
  have r2 := r1.rnd (c := 3) hr hu (by linarith) (by norm_num)
  have w1 := q2.mul r2 (c := 43) hu (by norm_num) (by norm_num) (by linarith) (by norm_num)
  have w2 := w1.rnd (c := 45) hr hu (by linarith) (by norm_num)
  refine ⟨_, ?_, w2⟩
  unfold GeometryRounded.orbitalScale
  simp only [L.sub_fin, L.mul_fin, L.add_fin]
  rw [L.div_fin _ _ dpos.ne', L.div_fin _ _ v0.ne', L.mul_fin]

/-- **C109** The steepness that a measurement asks for is computed up to a relative error of `51 u`. -/
theorem C109_scaled (L : FloatLib ℝ) (u : ℝ) (hL : Accurate L u) (hu1 : 1000 * u ≤ 1) (slope l v t : ℝ)
    (l0 : 0 ≤ l) (l1 : l ≤ 1) (v0 : 0 < v) (t0 : 0 < t) :
    ∃ w, GeometryRounded.scaledGradient L (.fin slope) (GeometryRounded.orbitalScale L (.fin l) (.fin v)) (.fin t) =
        .fin w ∧ RelNear (51 * u) w (slope * orbitalFactor v l / t) := by
  have hu := hL.nonneg
  have hr := hL.rnd
  obtain ⟨k, e, n⟩ := orbital_near hL hu1 l v l0 l1 v0
  have a1 : RelNear (1 * u) (L.rnd (1 / t)) (1 / t) := RelNear.rnd_self hr _
  have a2 := n.mul a1 (c := 47) hu (by norm_num) (by norm_num) (by linarith) (by norm_num)
  have a3 := a2.rnd (c := 49) hr hu (by linarith) (by norm_num)
  have a4 := (a3.mul_left slope).rnd (c := 51) hr hu (by linarith) (by norm_num)
  rw [show slope * (orbitalFactor v l * (1 / t)) = slope * orbitalFactor v l / t by field_simp] at a4
  refine ⟨_, ?_, a4⟩
  unfold GeometryRounded.scaledGradient
  rw [e, L.div_fin _ _ t0.ne']
  simp only [L.mul_fin]

/-! ## The decision -/

/-- The edge at two positions that are near each other. -/
theorem moved_near {u p q dx dy fx fy s : ℝ} (hu : 0 ≤ u) (hu1 : 100 * u ≤ 1) (hsd : s * dy = -dx)
    (hpq : RelNear u q p) :
    |-(fy ^ 2 * p) - -(fy ^ 2 * q)| + |(s * fy ^ 2 * p - fx ^ 2 * dy) - (s * fy ^ 2 * q - fx ^ 2 * dy)| ≤
      1.02 * u * terms q dx dy fx fy s := by
  have h1 : |q - p| ≤ u * |p| := hpq
  have h2 : |p| ≤ 1.02 * |q| := by
    have := abs_sub_abs_le_abs_sub p q
    rw [abs_sub_comm] at this
    have := mul_le_mul_of_nonneg_right hu1 (abs_nonneg p)
    linarith [abs_nonneg p]
  have h3 : |p - q| ≤ 1.02 * u * |q| := by
    rw [abs_sub_comm]
    have := mul_le_mul_of_nonneg_left h2 hu
    linarith
  rw [show -(fy ^ 2 * p) - -(fy ^ 2 * q) = -(fy ^ 2 * (p - q)) by ring,
    show (s * fy ^ 2 * p - fx ^ 2 * dy) - (s * fy ^ 2 * q - fx ^ 2 * dy) = s * fy ^ 2 * (p - q) by ring, abs_neg,
    abs_mul, abs_mul]
  have k1 : |fy ^ 2| * |p - q| ≤ 1.02 * u * |fy ^ 2 * q| := by
    rw [abs_mul]
    have := mul_le_mul_of_nonneg_left h3 (abs_nonneg (fy ^ 2))
    linarith
  have k2 : |s * fy ^ 2| * |p - q| ≤ 1.02 * u * |s * fy ^ 2 * q| := by
    rw [abs_mul _ q]
    have := mul_le_mul_of_nonneg_left h3 (abs_nonneg (s * fy ^ 2))
    linarith
  have k3 : |fy ^ 2 * q| ≤ |s * fy ^ 2 * dy| + |fy ^ 2 * (q - dx)| := by
    rw [show fy ^ 2 * q = -(s * fy ^ 2 * dy) + fy ^ 2 * (q - dx) by linear_combination fy ^ 2 * hsd]
    refine (abs_add_le _ _).trans ?_
    rw [abs_neg]
  have k4 : |s * fy ^ 2 * q| ≤ |(s ^ 2 * fy ^ 2 + fx ^ 2) * dy| + |s * fy ^ 2 * (q - dx)| := by
    rw [show s * fy ^ 2 * q = -(s ^ 2 * fy ^ 2 * dy) + s * fy ^ 2 * (q - dx) by
      linear_combination s * fy ^ 2 * hsd]
    refine (abs_add_le _ _).trans (add_le_add ?_ le_rfl)
    rw [abs_neg, abs_mul _ dy, abs_mul _ dy]
    refine mul_le_mul_of_nonneg_right ?_ (abs_nonneg dy)
    rw [abs_of_nonneg (by positivity), abs_of_nonneg (by positivity)]
    linarith [sq_nonneg fx]
  have k5 : |fy ^ 2 * q| + |s * fy ^ 2 * q| ≤ terms q dx dy fx fy s := by unfold terms; linarith
  have := mul_le_mul_of_nonneg_left k5 (show 0 ≤ 1.02 * u by linarith)
  linarith

/-- C109 (partial): the gradient at the position that is computed for a measurement is the true one at the true
position, up to `38 u` times its condition number.  `p'` is the position that the code computes.  Missing: edges
that are vertical up to the rounding error. -/
theorem C109_measured_partial (L : FloatLib ℝ) (u : ℝ) (hL : Accurate L u) (hu1 : 1000 * u ≤ 1)
    (time duration dx dy fx fy g : ℝ) (hx : 0 < fx) (hy : 0 < fy) (h : dy ≠ 0 ∨ dx = 0) (hd : 0 < duration)
    (hg : Geometry.diskGradient (.fin (-time / duration)) (.fin dx) (.fin dy)
      (Geometry.shear (.fin dx) (.fin dy)) (.fin fx) (.fin fy) = .fin g) :
    ∃ p', GeometryRounded.position L (.fin time) (.fin duration) = .fin p' ∧
      (18 * u * fuzz p' dx dy fx fy (shearOf dx dy) < √(1 - g ^ 2) →
        ∃ g', GeometryRounded.diskGradient L (.fin p') (.fin dx) (.fin dy)
            (GeometryRounded.shear L (.fin dx) (.fin dy)) (.fin fx) (.fin fy) = .fin g' ∧
          |g' - g| ≤ 38 * u * fuzz p' dx dy fx fy (shearOf dx dy)) := by
  have hu := hL.nonneg
  have hpos : GeometryRounded.position L (.fin time) (.fin duration) = .fin (L.rnd (-time / duration)) := by
    unfold GeometryRounded.position
    rw [XF.neg_fin, L.div_fin _ _ hd.ne']
  refine ⟨_, hpos, fun hv => ?_⟩
  have hpq : RelNear u (L.rnd (-time / duration)) (-time / duration) := hL.rnd _
  clear hpos
  generalize L.rnd (-time / duration) = q at *
  generalize -time / duration = p at *
  rw [gradient_eq p dx dy fx fy h] at hg
  by_cases h0 : shearOf dx dy * fy ^ 2 * p - fx ^ 2 * dy = 0
  · rw [if_pos h0] at hg; cases hg
  rw [if_neg h0] at hg
  injection hg with hg
  have hp : p ≠ 0 ∨ dy ≠ 0 := by
    by_contra hc
    push Not at hc
    exact h0 (by rw [hc.1, hc.2]; ring)
  have hq : q ≠ 0 ∨ dy ≠ 0 := by
    rcases hp with hp | hp
    · left
      rintro rfl
      have h1 : |0 - p| ≤ u * |p| := hpq
      rw [zero_sub, abs_neg] at h1
      have := abs_pos.2 hp
      nlinarith
    · exact Or.inr hp
  have hP := edge_pos (s := shearOf dx dy) hx hy hp
  have hQ := edge_pos (s := shearOf dx dy) hx hy hq
  have hP' : 0 < (-(fy ^ 2 * p)) ^ 2 + (shearOf dx dy * fy ^ 2 * p - fx ^ 2 * dy) ^ 2 := by rw [neg_sq]; exact hP
  have hQ' : 0 < (-(fy ^ 2 * q)) ^ 2 + (shearOf dx dy * fy ^ 2 * q - fx ^ 2 * dy) ^ 2 := by rw [neg_sq]; exact hQ
  have hmove := moved_near (fx := fx) (fy := fy) hu (by linarith) (shearOf_mul dx dy h) hpq
  have hmove2 := steep_near hmove hQ' hP'
  have hf : fuzz q dx dy fx fy (shearOf dx dy) = terms q dx dy fx fy (shearOf dx dy) /
      √((-(fy ^ 2 * q)) ^ 2 + (shearOf dx dy * fy ^ 2 * q - fx ^ 2 * dy) ^ 2) := by
    unfold fuzz edgeLength; rw [neg_sq]
  rw [show 2 * (1.02 * u * terms q dx dy fx fy (shearOf dx dy)) /
      √((-(fy ^ 2 * q)) ^ 2 + (shearOf dx dy * fy ^ 2 * q - fx ^ 2 * dy) ^ 2) =
      2.04 * u * fuzz q dx dy fx fy (shearOf dx dy) by rw [hf]; ring, hg] at hmove2
  have hfz : 0 ≤ u * fuzz q dx dy fx fy (shearOf dx dy) := by
    have : 0 ≤ fuzz q dx dy fx fy (shearOf dx dy) := by unfold fuzz terms edgeLength; positivity
    positivity
  rcases gradient_near hL (by linarith) q dx dy fx fy hx hy h hq with ⟨-, hn⟩ | ⟨g', e, n⟩
  · exfalso
    rw [← hg, steep_flat _ _ hP'] at hv
    have hswap := hmove
    rw [add_comm] at hswap
    have hmove3 := steep_near hswap (by rw [add_comm]; exact hQ') (by rw [add_comm]; exact hP')
    rw [add_comm _ ((-(fy ^ 2 * q)) ^ 2), show 2 * (1.02 * u * terms q dx dy fx fy (shearOf dx dy)) /
      √((-(fy ^ 2 * q)) ^ 2 + (shearOf dx dy * fy ^ 2 * q - fx ^ 2 * dy) ^ 2) =
      2.04 * u * fuzz q dx dy fx fy (shearOf dx dy) by rw [hf]; ring] at hmove3
    have k : steep (shearOf dx dy * fy ^ 2 * q - fx ^ 2 * dy) (-(fy ^ 2 * q)) ≤
        15 * u * fuzz q dx dy fx fy (shearOf dx dy) := by
      rw [hf, ← mul_div_assoc]
      unfold steep
      rw [add_comm ((shearOf dx dy * fy ^ 2 * q - fx ^ 2 * dy) ^ 2)]
      exact div_le_div_of_nonneg_right hn (sqrt_nonneg _)
    have := (abs_le.1 hmove3).2
    linarith
  · refine ⟨g', e, ?_⟩
    have := abs_sub_le g' (steep (-(fy ^ 2 * q)) (shearOf dx dy * fy ^ 2 * q - fx ^ 2 * dy)) g
    rw [abs_sub_comm (steep _ _) g] at this
    linarith

/-- C109 (partial): whether a measurement masks a grid point is decided in floating point as it should be,
unless the steepness of the edge and that asked for differ by less than the rounding error.  `p'` is the
position that the code computes.  Missing: edges that are vertical up to the rounding error. -/
theorem C109_mask_partial (L : FloatLib ℝ) (u : ℝ) (hL : Accurate L u) (hu1 : 1000 * u ≤ 1)
    (time slope t duration v l dx dy fx fy g : ℝ) (hx : 0 < fx) (hy : 0 < fy) (h : dy ≠ 0 ∨ dx = 0)
    (hd : 0 < duration) (hslope : 0 ≤ slope) (l0 : 0 ≤ l) (l1 : l ≤ 1) (v0 : 0 < v) (t0 : 0 < t)
    (hg : Geometry.diskGradient (.fin (-time / duration)) (.fin dx) (.fin dy)
      (Geometry.shear (.fin dx) (.fin dy)) (.fin fx) (.fin fy) = .fin g) :
    ∃ p', GeometryRounded.position L (.fin time) (.fin duration) = .fin p' ∧
      (18 * u * fuzz p' dx dy fx fy (shearOf dx dy) < √(1 - g ^ 2) →
        u * (38 * fuzz p' dx dy fx fy (shearOf dx dy) + 51 * (slope * orbitalFactor v l / t)) <
          |g - slope * orbitalFactor v l / t| →
        GeometryRounded.marked L (.fin time) (.fin slope) (.fin t) (.fin duration) (.fin v) (.fin l) (.fin dx)
          (.fin dy) (.fin fx) (.fin fy) = decide (g < slope * orbitalFactor v l / t)) := by
  obtain ⟨q, hpos, hgrad⟩ := C109_measured_partial L u hL hu1 time duration dx dy fx fy g hx hy h hd hg
  refine ⟨q, hpos, fun hv hm => ?_⟩
  obtain ⟨g', e, n2⟩ := hgrad hv
  unfold GeometryRounded.marked
  rw [hpos]
  obtain ⟨w, ew, nw⟩ := C109_scaled L u hL hu1 slope l v t l0 l1 v0 t0
  rw [XF.abs_fin, abs_of_nonneg hslope, ew]
  have nw' : |w - slope * orbitalFactor v l / t| ≤ 51 * u * |slope * orbitalFactor v l / t| := nw
  have hT : 0 ≤ slope * orbitalFactor v l / t := by
    have : 0 ≤ orbitalFactor v l := by
      unfold orbitalFactor
      have h1 : 0 ≤ 6 - 2 * l := by linarith
      have h2 : 0 ≤ 12 - 12 * l + 3 * π * l := by
        have : 0 ≤ 3 * π * l := by positivity
        linarith
      have := pi_pos
      positivity
    positivity
  rw [abs_of_nonneg hT] at nw'
  generalize slope * orbitalFactor v l / t = T at *
  rw [e]
  unfold GGrad.maskAt
  rw [XF.lt_fin, XF.isNan_fin, Bool.or_false]
  obtain ⟨a1, a2⟩ := abs_le.1 n2
  obtain ⟨b1, b2⟩ := abs_le.1 nw'
  refine decide_eq_decide.2 ⟨fun hlt => ?_, fun hlt => ?_⟩
  · by_contra hge
    rw [not_lt] at hge
    rw [abs_of_nonneg (by linarith)] at hm
    linarith
  · rw [abs_of_neg (by linarith)] at hm
    linarith

/-- C109 (negation): in binary64, the circle centred 2^27 eclipse durations ahead of the star has no gradient
in the middle of the eclipse, though its edge is flat there. -/
theorem C109_false :
    (∀ L : FloatLib ℚ, L.rnd = toDouble →
      GeometryRounded.diskGradient L (.fin 0) (.fin (2 ^ 27)) (.fin 1)
        (GeometryRounded.shear L (.fin (2 ^ 27)) (.fin 1)) (.fin 1) (.fin 1) = .nan) ∧
    Geometry.diskGradient (.fin 0) (.fin (2 ^ 27 : ℝ)) (.fin 1) (Geometry.shear (.fin (2 ^ 27)) (.fin 1)) (.fin 1)
      (.fin 1) = .fin 0 := by
  constructor
  · intro L hL
    have hs : GeometryRounded.shear L (.fin (2 ^ 27)) (.fin 1) = .fin (-2 ^ 27) := by
      simp only [GeometryRounded.shear, FloatLib.div, hL]
      decide +kernel
    rw [hs]
    have h : XF.eqb (L.add (L.mul (L.add (L.mul (L.sq (.fin (-2 ^ 27))) (L.sq (.fin 1))) (L.sq (.fin 1)))
        ((XF.fin (1 : ℚ)).neg)) (L.mul (L.mul (.fin (-2 ^ 27)) (L.sq (.fin 1)))
        (L.sub (.fin 0) (.fin (2 ^ 27))))) (.fin 0) = true := by
      simp only [FloatLib.sub, FloatLib.mul, FloatLib.sq, FloatLib.add, hL]
      decide +kernel
    unfold GeometryRounded.diskGradient
    simp only [h, Bool.not_true, Bool.false_eq_true, if_false]
    rfl
  · rw [gradient_eq _ _ _ _ _ (Or.inl one_ne_zero), if_neg (by norm_num)]
    congr 1
    unfold steep
    norm_num

/-- In binary64, a measurement one eclipse duration before the middle: the edge of the circle has a slope of
`1 / √2` there, the measurement asks for `1 / 2`, and the circle is kept; a measurement that is twice as steep
masks it. -/
example : GeometryRounded.marked .double (.fin (-1)) (.fin 1) (.fin 1) (.fin 1) (.fin π) (.fin 0) (.fin 0) (.fin 1)
      (.fin 1) (.fin 1) = false ∧
    GeometryRounded.marked .double (.fin (-1)) (.fin 2) (.fin 1) (.fin 1) (.fin π) (.fin 0) (.fin 0) (.fin 1)
      (.fin 1) (.fin 1) = true := by
  have hs : shearOf 0 1 = 0 := by unfold shearOf; norm_num
  have hg : Geometry.diskGradient (.fin (- -1 / 1)) (.fin 0) (.fin 1) (Geometry.shear (.fin 0) (.fin 1)) (.fin 1)
      (.fin 1) = .fin (1 / √2) := by
    rw [gradient_eq _ _ _ _ _ (Or.inr rfl), hs, if_neg (by norm_num)]
    congr 1
    unfold steep
    norm_num
  have hpos : GeometryRounded.position .double (.fin (-1)) (.fin 1) = .fin 1 := by
    unfold GeometryRounded.position
    rw [XF.neg_fin, FloatLib.div_fin _ _ _ one_ne_zero, neg_neg, div_one]
    congr 1
    exact double_one
  have hf : fuzz 1 0 1 1 1 0 = √2 := by
    unfold fuzz terms edgeLength
    rw [show |(0 : ℝ) * 1 ^ 2 * 1| + |(1 : ℝ) ^ 2 * (1 - 0)| + (|((0 : ℝ) ^ 2 * 1 ^ 2 + 1 ^ 2) * 1| +
      |(0 : ℝ) * 1 ^ 2 * (1 - 0)|) = 2 by norm_num, show ((1 : ℝ) ^ 2 * 1) ^ 2 + (0 * 1 ^ 2 * 1 - 1 ^ 2 * 1) ^ 2 = 2 by
      norm_num, div_sqrt]
  have r1 : √(2 : ℝ) ≤ 1.42 := sqrt_le_iff.2 (by norm_num)
  have r2 : (1.41 : ℝ) ≤ √2 := le_sqrt_of_sq_le (by norm_num)
  have r0 : (0 : ℝ) < √2 := by linarith
  have r3 : 1 / √2 ≤ (0.71 : ℝ) := by rw [div_le_iff₀ r0]; linarith
  have r4 : (0.7 : ℝ) ≤ 1 / √2 := by rw [le_div_iff₀ r0]; linarith
  have r5 : (0.7 : ℝ) ≤ √(1 - (1 / √2) ^ 2) := le_sqrt_of_sq_le (by
    rw [div_pow, sq_sqrt (by norm_num)]; norm_num)
  have ho : orbitalFactor π 0 = 1 / 2 := by
    unfold orbitalFactor
    have := pi_pos.ne'
    field_simp
    norm_num
  have key := fun (slope : ℝ) (h0 : 0 ≤ slope) => C109_mask_partial .double _ double_accurate (by norm_num) (-1) slope
    1 1 π 0 0 1 1 1 (1 / √2) one_pos one_pos (Or.inr rfl) one_pos h0 le_rfl (by norm_num) pi_pos one_pos hg
  constructor
  · obtain ⟨p', e, h⟩ := key 1 (by norm_num)
    rw [hpos] at e
    injection e with e
    subst e
    rw [hs, hf, ho] at h
    rw [h (by linarith) (by rw [abs_of_pos (by norm_num at r4 ⊢; linarith)]; norm_num at r4 ⊢; linarith)]
    exact decide_eq_false (by norm_num at r4 ⊢; linarith)
  · obtain ⟨p', e, h⟩ := key 2 (by norm_num)
    rw [hpos] at e
    injection e with e
    subst e
    rw [hs, hf, ho] at h
    rw [h (by linarith) (by rw [abs_of_neg (by norm_num at r3 ⊢; linarith)]; norm_num at r3 ⊢; linarith)]
    exact decide_eq_true (by norm_num at r3 ⊢; linarith)

end Beyonce
