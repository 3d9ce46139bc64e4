import Verif.NotebookRounded
import Verif.Props.PatchRounded
import Verif.Props.GradientRounded
import Verif.Props.Notebook

/-!
# Property C126: the curves of the notebooks in floating point
-/

set_option linter.unusedSectionVars false

namespace Beyonce
open Spec Real

/-! ## Exact arithmetic is the model without rounding -/

section
variable {K : Type} [Field K] [LinearOrder K] [CharZero K] [RealFns K]

theorem ringGradient_exact (p dx dy i t : XF K) :
    NotebookRounded.ringGradient .exact p dx dy i t = Notebook.ringGradient p dx dy i t := by
  have h180 : (180 : K) ≠ 0 := by norm_num
  have hd : ∀ a : XF K, NotebookRounded.deg2rad .exact a = Notebook.deg2rad a := fun a => by
    simp only [NotebookRounded.deg2rad, Notebook.deg2rad, FloatLib.mul, FloatLib.div]
    simp only [FloatLib.exact, round_same, XF.div_fin _ _ h180]
  simp only [NotebookRounded.ringGradient, Notebook.ringGradient, hd, FloatLib.sub, FloatLib.mul, FloatLib.sq,
    FloatLib.add, FloatLib.div, FloatLib.sinX, FloatLib.cosX, FloatLib.arctan2X, XF.sq]
  simp only [FloatLib.exact, round_same]
  rfl

theorem solutionGradient_exact (k p : XF K) (row : Shallot.Solution K) :
    NotebookRounded.solutionGradient .exact k p row = Notebook.solutionGradient k p row := by
  simp only [NotebookRounded.solutionGradient, Notebook.solutionGradient, ringGradient_exact, FloatLib.mul]
  simp only [FloatLib.exact, round_same]

end

/-! ## From numerator and denominator to the gradient -/

theorem tangent_value {L : FloatLib ℝ} {u : ℝ} (hL : Accurate L u) (n d : ℝ) (h : 0 < n ^ 2 + d ^ 2) :
    ∃ g, (L.sinX (L.arctan2X (L.div (.fin n) (.fin d)) (.fin 1))).abs = .fin g ∧ |g - steep n d| ≤ 5 * u := by
  have hu := hL.nonneg
  have sine : ∀ a b : ℝ, |a - b| ≤ u * 1.6 → |(|L.sin a| - |sin b|)| ≤ 2.6 * u := by
    intro a b hab
    have k5 := sin_near a b
    have k6 : |L.sin a - sin a| ≤ u * |sin a| := hL.sin _
    have k7 := mul_le_mul_of_nonneg_left (abs_sin_le_one a) hu
    refine (abs_abs_sub_abs_le _ _).trans ((abs_sub_le _ (sin a) _).trans ?_)
    linarith
  by_cases h0 : d = 0
  · subst h0
    have hn : n ≠ 0 := by
      rintro rfl
      norm_num at h
    have hs : steep n 0 = 1 := by
      unfold steep
      rw [zero_pow two_ne_zero, add_zero, sqrt_sq_eq_abs, div_self (abs_ne_zero.2 hn)]
    have hpi : |L.pi / 2 - π / 2| ≤ u * 1.6 := by
      have h1 : |L.pi - π| ≤ u * |π| := hL.pi
      rw [abs_of_pos pi_pos] at h1
      rw [← sub_div, abs_div, abs_of_pos (two_pos : (0 : ℝ) < 2)]
      have := mul_le_mul_of_nonneg_left pi_lt_d2.le hu
      rw [div_le_iff₀ two_pos]
      linarith
    rw [hs]
    rcases lt_or_gt_of_ne hn with hneg | hpos
    · refine ⟨|L.sin (-(L.pi / 2))|, ?_, ?_⟩
      · simp only [FloatLib.div, XF.div, if_true, XF.infSign, not_lt.2 hneg.le, hneg, if_false, XF.round,
          FloatLib.arctan2X, XF.arctan2, FloatLib.sinX, XF.sin, XF.abs]
        rfl
      · have := sine (-(L.pi / 2)) (-(π / 2)) (by rw [← neg_sub_neg, neg_neg, neg_neg, abs_sub_comm]; exact hpi)
        rw [sin_neg, sin_pi_div_two, abs_neg, abs_one] at this
        linarith
    · refine ⟨|L.sin (L.pi / 2)|, ?_, ?_⟩
      · simp only [FloatLib.div, XF.div, if_true, XF.infSign, hpos, XF.round,
          FloatLib.arctan2X, XF.arctan2, FloatLib.sinX, XF.sin, XF.abs]
        rfl
      · have := sine (L.pi / 2) (π / 2) hpi
        rw [sin_pi_div_two, abs_one] at this
        linarith
  · rw [L.div_fin _ _ h0, L.arctan2_fin, L.sin_fin, XF.abs_fin]
    refine ⟨_, rfl, ?_⟩
    have ht : |L.rnd (n / d) - n / d| ≤ u * |n / d| := hL.rnd _
    have k1 : |steep (L.rnd (n / d)) 1 - steep (n / d) 1| ≤ 2 * u := by
      have hq : 0 < (n / d) ^ 2 + 1 ^ 2 := by positivity
      refine (steep_near (e := u * |n / d|) (by rw [sub_self, abs_zero, add_zero]; exact ht) hq
        (by positivity)).trans ?_
      rw [div_le_iff₀ (sqrt_pos.2 hq)]
      have : |n / d| ≤ √((n / d) ^ 2 + 1 ^ 2) := fst_le_norm2 (n / d, 1)
      have := mul_le_mul_of_nonneg_left this hu
      linarith
    rw [steep_same n d h0] at k1
    generalize L.rnd (n / d) = t at *
    have k3 : |L.arctan2 t 1 - Complex.arg ⟨1, t⟩| ≤ u * |Complex.arg ⟨1, t⟩| := hL.arctan2 t 1
    have k4 : |Complex.arg ⟨1, t⟩| ≤ 1.6 := by
      have := Complex.abs_arg_le_pi_div_two_iff.2 (show (0 : ℝ) ≤ (⟨1, t⟩ : ℂ).re by norm_num)
      have := pi_lt_d2
      linarith
    have k8 := sine _ _ (k3.trans (mul_le_mul_of_nonneg_left k4 hu))
    rw [steep_one] at k8
    have := abs_sub_le |L.sin (L.arctan2 t 1)| (steep t 1) (steep n d)
    linarith

/-! ## The helpers -/

/-- `c2` times the square of the cosine of the tilt, and so on: the eigenvalues of the matrix are `1` and `J`. -/
theorem stretched (c s J x y : ℝ) (h : s ^ 2 + c ^ 2 = 1) :
    (x * (c ^ 2 + s ^ 2 * J) + c * s * (1 - J) * y) ^ 2 + (y * (s ^ 2 + c ^ 2 * J) + c * s * (1 - J) * x) ^ 2 =
      (c * x + s * y) ^ 2 + J ^ 2 * (c * y - s * x) ^ 2 := by
  have e1 : x * (c ^ 2 + s ^ 2 * J) + c * s * (1 - J) * y = c * (c * x + s * y) - J * s * (c * y - s * x) := by ring
  have e2 : y * (s ^ 2 + c ^ 2 * J) + c * s * (1 - J) * x = s * (c * x + s * y) + J * c * (c * y - s * x) := by ring
  rw [e1, e2]
  linear_combination ((c * x + s * y) ^ 2 + J ^ 2 * (c * y - s * x) ^ 2) * h

theorem stretched_ge (c s J x y : ℝ) (h : s ^ 2 + c ^ 2 = 1) (hJ : 1 ≤ J) :
    (|x| + |y|) ^ 2 ≤ 2 * ((x * (c ^ 2 + s ^ 2 * J) + c * s * (1 - J) * y) ^ 2 +
      (y * (s ^ 2 + c ^ 2 * J) + c * s * (1 - J) * x) ^ 2) := by
  rw [stretched c s J x y h]
  have h1 : (c * y - s * x) ^ 2 ≤ J ^ 2 * (c * y - s * x) ^ 2 := by
    have : 1 ≤ J ^ 2 := one_le_pow₀ hJ
    nlinarith [sq_nonneg (c * y - s * x)]
  have h2 : (c * x + s * y) ^ 2 + (c * y - s * x) ^ 2 = x ^ 2 + y ^ 2 := by
    linear_combination (x ^ 2 + y ^ 2) * h
  have h3 : (|x| + |y|) ^ 2 ≤ 2 * (x ^ 2 + y ^ 2) := by
    rw [← sq_abs x, ← sq_abs y]
    nlinarith [sq_nonneg (|x| - |y|)]
  linarith

/-- The sum of two products. -/
theorem pair_near {L : FloatLib ℝ} {u v J T : ℝ} (hL : Accurate L u) (huv : u ≤ v) (hv : 1000 * v ≤ 1) (hJ : 1 ≤ J)
    (hvJ : 1000 * (v * J) ≤ 1) (hT : 0 ≤ T) {a b x y a' b' x' y' : ℝ} (ha : AbsNear (120 * (v * J)) a' a) (hb : AbsNear (120 * (v * J)) b' b)
    (hA : |a| ≤ 2 * J) (hB : |b| ≤ 2 * J) (hx : AbsNear (u * T) x' x) (hy : AbsNear (u * T) y' y) (hX : |x| + |y| ≤ T) :
    AbsNear (140 * (v * J) * T) (L.rnd (L.rnd (x' * a') + L.rnd (b' * y'))) (x * a + b * y) := by
  have hu := hL.nonneg
  have hE : u * J ≤ v * J := mul_le_mul_of_nonneg_right huv (by linarith)
  have hE0 : 0 ≤ v * J := mul_nonneg (by linarith) (by linarith)
  have hE1 : u ≤ v * J := by nlinarith
  generalize v * J = E at *
  have hP : 0 ≤ E * T := mul_nonneg hE0 hT
  have p1 : u * J * T ≤ E * T := mul_le_mul_of_nonneg_right hE hT
  have p2 : u * (E * T) ≤ 1 / 1000 * (E * T) := mul_le_mul_of_nonneg_right (by linarith) hP
  have hx0 := abs_nonneg x
  have hy0 := abs_nonneg y
  have hJ0 : 0 ≤ J := by linarith
  have q0 := mul_nonneg hE0 hx0
  have q0' := mul_nonneg hE0 hy0
  have q1 : E * |x| ≤ E * T := mul_le_mul_of_nonneg_left (by linarith) hE0
  have q2 : E * |y| ≤ E * T := mul_le_mul_of_nonneg_left (by linarith) hE0
  have q3 : u * J * |x| ≤ E * |x| := mul_le_mul_of_nonneg_right hE hx0
  have q4 : u * J * |y| ≤ E * |y| := mul_le_mul_of_nonneg_right hE hy0
  have q5 : E * |x| + E * |y| ≤ E * T := by rw [← mul_add]; exact mul_le_mul_of_nonneg_left hX hE0
  have q6 : u * (E * |x|) ≤ 1 / 1000 * (E * |x|) := mul_le_mul_of_nonneg_right (by linarith) (mul_nonneg hE0 hx0)
  have q7 : u * (E * |y|) ≤ 1 / 1000 * (E * |y|) := mul_le_mul_of_nonneg_right (by linarith) (mul_nonneg hE0 hy0)
  have a1 : AbsNear (120 * (E * |x|) + 2.12 * (E * T)) (x' * a') (x * a) :=
    (absNear_mul hx ha le_rfl hA).mono (by linarith)
  have b1 : AbsNear (120 * (E * |y|) + 2.12 * (E * T)) (b' * y') (b * y) :=
    (absNear_mul hb hy hB le_rfl).mono (by linarith)
  have hxa : |x * a| ≤ 2 * J * |x| := by
    rw [abs_mul, mul_comm]
    exact mul_le_mul_of_nonneg_right hA hx0
  have hby : |b * y| ≤ 2 * J * |y| := by
    rw [abs_mul]
    exact mul_le_mul_of_nonneg_right hB hy0
  have a2 : AbsNear (123 * (E * |x|) + 2.2 * (E * T)) _ _ := (absNear_rnd hL.rnd hu a1 hxa).mono (by linarith)
  have b2 : AbsNear (123 * (E * |y|) + 2.2 * (E * T)) _ _ := (absNear_rnd hL.rnd hu b1 hby).mono (by linarith)
  have hS : |x * a + b * y| ≤ 2 * J * T := by
    refine (abs_add_le _ _).trans ?_
    have : 2 * J * (|x| + |y|) ≤ 2 * J * T := mul_le_mul_of_nonneg_left hX (by linarith)
    linarith
  refine (absNear_rnd hL.rnd hu (absNear_add a2 b2) hS).mono ?_
  linarith

/-- The three helpers `numz`, `denz` and `z`. -/
theorem helpers_near {L : FloatLib ℝ} {u κ c s κ' c' s' : ℝ} (hL : Accurate L u) (hκ : 0 < κ) (hκ1 : κ ≤ 1)
    (hv : 1000 * (u / κ) ≤ 1) (hk : AbsNear (9 * u) κ' κ) (hc : AbsNear (17 * u) c' c)
    (hs : AbsNear (17 * u) s' s) (hC : |c| ≤ 1) (hS : |s| ≤ 1) :
    L.rnd (κ' * κ') ≠ 0 ∧
    AbsNear (120 * (u / κ * (1 / κ ^ 2))) (L.rnd (L.rnd (c' * c') + L.rnd (L.rnd (s' * s') / L.rnd (κ' * κ'))))
      (c ^ 2 + s ^ 2 * (1 / κ ^ 2)) ∧
    AbsNear (120 * (u / κ * (1 / κ ^ 2))) (L.rnd (L.rnd (s' * s') + L.rnd (L.rnd (c' * c') / L.rnd (κ' * κ'))))
      (s ^ 2 + c ^ 2 * (1 / κ ^ 2)) ∧
    AbsNear (120 * (u / κ * (1 / κ ^ 2))) (L.rnd (L.rnd (c' * s') * L.rnd (1 - L.rnd (1 / L.rnd (κ' * κ')))))
      (c * s * (1 - 1 / κ ^ 2)) := by
  have hu := hL.nonneg
  have huv : u ≤ u / κ := by rw [le_div_iff₀ hκ]; nlinarith
  have hv0 : 0 ≤ u / κ := div_nonneg hu hκ.le
  have hrel : RelNear (9 * (u / κ)) κ' κ := by
    unfold RelNear
    rw [abs_of_pos hκ]
    have : 9 * (u / κ) * κ = 9 * u := by field_simp
    rw [this]
    exact hk
  have hrv : Rounds L.rnd (u / κ) := fun x => (hL.rnd x).trans (mul_le_mul_of_nonneg_right huv (abs_nonneg x))
  generalize u / κ = v at *
  have r1 : RelNear (19 * v) (κ' * κ') (κ * κ) :=
    hrel.mul hrel hv0 (by norm_num) (by norm_num) (by linarith) (by norm_num)
  have r2 : RelNear (21 * v) (L.rnd (κ' * κ')) (κ ^ 2) := by
    rw [sq]
    exact r1.rnd hrv hv0 (by linarith) (by norm_num)
  have hκ2 : 0 < κ ^ 2 := by positivity
  have hpos := r2.pos hκ2 (by linarith)
  have r3 := r2.inv hκ2 (by linarith) (by linarith)
  generalize L.rnd (κ' * κ') = w at *
  refine ⟨hpos.ne', ?_⟩
  have hJ : 1 ≤ 1 / κ ^ 2 := by
    rw [le_div_iff₀ hκ2, one_mul]
    exact pow_le_one₀ hκ.le hκ1
  generalize 1 / κ ^ 2 = J at *
  have hJ0 : 0 ≤ J := by linarith
  have hE0 : 0 ≤ v * J := mul_nonneg hv0 hJ0
  have hJ' : AbsNear (42 * (v * J)) (1 / w) J := by
    have : |1 / w - J| ≤ 2 * (21 * v) * |J| := r3
    rw [abs_of_nonneg hJ0] at this
    unfold AbsNear
    linarith
  have hvE : v ≤ v * J := by nlinarith
  have huJ : u * J ≤ v * J := mul_le_mul_of_nonneg_right huv hJ0
  have huE : u * (v * J) ≤ 1 / 1000 * (v * J) := mul_le_mul_of_nonneg_right (by linarith) hE0
  have huu : u * u ≤ 1 / 1000 * u := mul_le_mul_of_nonneg_right (by linarith) hu
  generalize v * J = E at *
  -- squares and products of sines and cosines
  have square : ∀ {a b a' b' : ℝ}, AbsNear (17 * u) a' a → AbsNear (17 * u) b' b → |a| ≤ 1 → |b| ≤ 1 →
      AbsNear (35.5 * u) (L.rnd (a' * b')) (a * b) ∧ |a * b| ≤ 1 := by
    intro a b a' b' h1 h2 h3 h4
    have hab : |a * b| ≤ 1 := by
      rw [abs_mul]
      exact (mul_le_mul h3 h4 (abs_nonneg _) zero_le_one).trans (by norm_num)
    exact ⟨(absNear_rnd hL.rnd hu (absNear_mul h1 h2 h3 h4) hab).mono (by nlinarith), hab⟩
  obtain ⟨c1, c2⟩ := square hc hc hC hC
  obtain ⟨s1, s2⟩ := square hs hs hS hS
  obtain ⟨m1, m2⟩ := square hc hs hC hS
  rw [← sq] at c2 s2
  have sum : ∀ {a b a' b' : ℝ}, AbsNear (35.5 * u) a' a → AbsNear (35.5 * u) b' b → |a| ≤ 1 → |b| ≤ 1 →
      AbsNear (120 * E) (L.rnd (a' + L.rnd (b' / w))) (a + b * J) := by
    intro a b a' b' h1 h2 h3 h4
    have k1 : AbsNear (79.3 * E) (b' / w) (b * J) := by
      rw [div_eq_mul_one_div]
      exact (absNear_mul h2 hJ' h4 (le_of_eq (abs_of_nonneg hJ0))).mono (by nlinarith)
    have k2 : |b * J| ≤ J := by
      rw [abs_mul, abs_of_nonneg hJ0]
      exact (mul_le_mul_of_nonneg_right h4 hJ0).trans (by linarith)
    have k3 : AbsNear (80.6 * E) _ _ := (absNear_rnd hL.rnd hu k1 k2).mono (by nlinarith)
    have k4 : |a + b * J| ≤ 1 + J := (abs_add_le _ _).trans (by linarith)
    refine (absNear_rnd hL.rnd hu (absNear_add h1 k3) k4).mono ?_
    nlinarith
  refine ⟨?_, ?_, ?_⟩
  · rw [sq c, sq s]
    exact sum c1 s1 (by rw [← sq]; exact c2) (by rw [← sq]; exact s2)
  · rw [sq c, sq s]
    exact sum s1 c1 (by rw [← sq]; exact s2) (by rw [← sq]; exact c2)
  · have k1 : AbsNear (44 * E) (L.rnd (1 / w)) J :=
      (absNear_rnd hL.rnd hu hJ' (le_of_eq (abs_of_nonneg hJ0))).mono (by nlinarith)
    have k2 : AbsNear (44 * E) (1 - L.rnd (1 / w)) (1 - J) := by
      have : |L.rnd (1 / w) - J| ≤ 44 * E := k1
      unfold AbsNear
      rw [show 1 - L.rnd (1 / w) - (1 - J) = -(L.rnd (1 / w) - J) by ring, abs_neg]
      exact this
    have k3 : |1 - J| ≤ J := abs_le.2 ⟨by linarith, by linarith⟩
    have k4 : AbsNear (46 * E) _ _ := (absNear_rnd hL.rnd hu k2 k3).mono (by nlinarith)
    have k5 : AbsNear (84 * E) _ _ := (absNear_mul m1 k4 m2 k3).mono (by nlinarith)
    have k6 : |c * s * (1 - J)| ≤ J := by
      rw [abs_mul]
      exact (mul_le_mul m2 k3 (abs_nonneg _) zero_le_one).trans (by linarith)
    exact (absNear_rnd hL.rnd hu k5 k6).mono (by nlinarith)

theorem degrees_fin (L : FloatLib ℝ) (i : ℝ) :
    NotebookRounded.deg2rad L (.fin i) = .fin (PatchRounded.deg2rad L i) := by
  unfold NotebookRounded.deg2rad PatchRounded.deg2rad
  rw [L.div_fin _ _ (by norm_num), L.mul_fin]

/-- The vertical part of the edge of the disk of inclination `i` and tilt `t` through `(x, y)`. -/
noncomputable def Spec.rise (i t x y : ℝ) : ℝ :=
  x * (cos (rad t) ^ 2 + sin (rad t) ^ 2 * (1 / cos (rad i) ^ 2)) +
    cos (rad t) * sin (rad t) * (1 - 1 / cos (rad i) ^ 2) * y

/-- The horizontal part. -/
noncomputable def Spec.run (i t x y : ℝ) : ℝ :=
  y * (sin (rad t) ^ 2 + cos (rad t) ^ 2 * (1 / cos (rad i) ^ 2)) +
    cos (rad t) * sin (rad t) * (1 - 1 / cos (rad i) ^ 2) * x

/-- What is computed from coordinates that are already off by `u T`. -/
theorem ring_value {L : FloatLib ℝ} {u : ℝ} (hL : Accurate L u) (P X Y i t x y T : ℝ) (hi0 : 0 ≤ i) (hi : i < 90)
    (ht : |t| ≤ 180) (hx : AbsNear (u * T) (L.rnd (P - X)) x) (hy : AbsNear (u * T) (L.rnd (-Y * 1)) y)
    (hT : |x| + |y| ≤ T) (hp : 0 < |x| + |y|) (hu1 : 1000 * (u / cos (rad i) ^ 3 * T) ≤ |x| + |y|) :
    ∃ g, NotebookRounded.ringGradient L (.fin P) (.fin X) (.fin Y) (.fin i) (.fin t) = .fin g ∧
      |g - steep (rise i t x y) (run i t x y)| ≤ 800 * (u / cos (rad i) ^ 3) * (T / (|x| + |y|)) := by
  have hu := hL.nonneg
  have hκ : 0 < cos (rad i) := cos_deg_pos hi0 hi
  have hκ1 := cos_le_one (rad i)
  have hT0 : 0 < T := hp.trans_le hT
  have hi90 : |i| ≤ 90 := abs_le.2 ⟨by linarith, hi.le⟩
  have hpi := pi_lt_d2
  have a1 := deg2rad_bound hi90
  have a2 := deg2rad_bound ht
  have er : ∀ z, deg2rad z = rad z := fun z => rfl
  have eE : u / cos (rad i) * (1 / cos (rad i) ^ 2) = u / cos (rad i) ^ 3 := by field_simp
  have hE0 : 0 ≤ u / cos (rad i) ^ 3 := by positivity
  have hE1 : 1000 * (u / cos (rad i) ^ 3) ≤ 1 := by
    by_contra hcon
    have := mul_lt_mul_of_pos_right (not_le.1 hcon) hT0
    linarith
  have hJ : 1 ≤ 1 / cos (rad i) ^ 2 := by
    rw [le_div_iff₀ (by positivity), one_mul]
    exact pow_le_one₀ hκ.le hκ1
  have huv : u ≤ u / cos (rad i) := by rw [le_div_iff₀ hκ]; nlinarith
  have hv0 : 0 ≤ u / cos (rad i) := div_nonneg hu hκ.le
  have hv1 : 1000 * (u / cos (rad i)) ≤ 1 := by
    have : u / cos (rad i) ≤ u / cos (rad i) ^ 3 := by rw [← eE]; nlinarith
    linarith
  have hu2 : 1000 * u ≤ 1 := by linarith
  have c1 : AbsNear (9 * u) _ _ := (cosine_near hL (angle_near hL hu2 i) (m := 1.58) (by linarith)).mono (by linarith)
  have c2 : AbsNear (17 * u) _ _ := (cosine_near hL (angle_near hL hu2 t) (m := 3.16) (by linarith)).mono (by linarith)
  have c3 : AbsNear (17 * u) _ _ := (sine_near hL (angle_near hL hu2 t) (m := 3.16) (by linarith)).mono (by linarith)
  rw [er] at c1 c2 c3
  obtain ⟨hw, n1, n2, n3⟩ := helpers_near hL hκ hκ1 hv1 c1 c2 c3 (abs_cos_le_one _) (abs_sin_le_one _)
  have e := sin_sq_add_cos_sq (rad t)
  unfold NotebookRounded.ringGradient
  simp only [degrees_fin, L.cos_fin, L.sin_fin, L.sq_fin, L.sub_fin, XF.neg_fin, L.mul_fin, L.div_fin _ _ hw, L.add_fin]
  have hC := abs_cos_le_one (rad t)
  have hS := abs_sin_le_one (rad t)
  have hge := stretched_ge (cos (rad t)) (sin (rad t)) (1 / cos (rad i) ^ 2) x y e hJ
  have hN : rise i t x y = x * (cos (rad t) ^ 2 + sin (rad t) ^ 2 * (1 / cos (rad i) ^ 2)) +
    cos (rad t) * sin (rad t) * (1 - 1 / cos (rad i) ^ 2) * y := rfl
  have hD : run i t x y = y * (sin (rad t) ^ 2 + cos (rad t) ^ 2 * (1 / cos (rad i) ^ 2)) +
    cos (rad t) * sin (rad t) * (1 - 1 / cos (rad i) ^ 2) * x := rfl
  rw [← hN, ← hD] at hge
  have bsq : ∀ z : ℝ, |z| ≤ 1 → z ^ 2 ≤ 1 := fun z hz => by rw [← sq_abs]; exact pow_le_one₀ (abs_nonneg z) hz
  have b1 : |cos (rad t) ^ 2 + sin (rad t) ^ 2 * (1 / cos (rad i) ^ 2)| ≤ 2 * (1 / cos (rad i) ^ 2) := by
    rw [abs_of_nonneg (by positivity)]
    have := mul_le_mul_of_nonneg_right (bsq _ hS) (show 0 ≤ 1 / cos (rad i) ^ 2 by linarith)
    linarith [bsq _ hC]
  have b2 : |sin (rad t) ^ 2 + cos (rad t) ^ 2 * (1 / cos (rad i) ^ 2)| ≤ 2 * (1 / cos (rad i) ^ 2) := by
    rw [abs_of_nonneg (by positivity)]
    have := mul_le_mul_of_nonneg_right (bsq _ hC) (show 0 ≤ 1 / cos (rad i) ^ 2 by linarith)
    linarith [bsq _ hS]
  have b3 : |cos (rad t) * sin (rad t) * (1 - 1 / cos (rad i) ^ 2)| ≤ 2 * (1 / cos (rad i) ^ 2) := by
    rw [abs_mul, abs_mul]
    have k1 : |1 - 1 / cos (rad i) ^ 2| ≤ 1 / cos (rad i) ^ 2 := abs_le.2 ⟨by linarith, by linarith⟩
    have k2 : |cos (rad t)| * |sin (rad t)| ≤ 1 := (mul_le_mul hC hS (abs_nonneg _) zero_le_one).trans (by norm_num)
    exact (mul_le_mul k2 k1 (abs_nonneg _) zero_le_one).trans (by linarith)
  have p1 := pair_near hL huv hv1 hJ (by rw [eE]; exact hE1) hT0.le n1 n3 b1 b3 hx hy hT
  have p2 := pair_near hL huv hv1 hJ (by rw [eE]; exact hE1) hT0.le n2 n3 b2 b3 hy hx (by linarith)
  rw [← hN] at p1
  rw [← hD] at p2
  rw [eE] at p1 p2
  clear n1 n2 n3 b1 b2 b3 hN hD
  generalize L.rnd (L.rnd (L.rnd (P - X) * _) + L.rnd (_ * L.rnd (-Y * 1))) = N' at *
  generalize L.rnd (L.rnd (L.rnd (-Y * 1) * _) + L.rnd (_ * L.rnd (P - X))) = D' at *
  generalize rise i t x y = N at *
  generalize run i t x y = D at *
  generalize u / cos (rad i) ^ 3 = E at *
  generalize |x| + |y| = m at *
  have hlen : m ≤ 1.4143 * √(N ^ 2 + D ^ 2) := by
    have h0 : 0 ≤ N ^ 2 + D ^ 2 := by positivity
    have : m ^ 2 ≤ (1.4143 * √(N ^ 2 + D ^ 2)) ^ 2 := by
      rw [mul_pow, sq_sqrt h0]
      nlinarith
    exact abs_le_of_sq_le_sq' this (by positivity) |>.2
  have hpos : 0 < N ^ 2 + D ^ 2 := by
    by_contra hcon
    rw [sqrt_eq_zero_of_nonpos (not_lt.1 hcon)] at hlen
    linarith
  have hsum : |N' - N| + |D' - D| ≤ 280 * (E * T) := by
    have q1 : |N' - N| ≤ 140 * E * T := p1
    have q2 : |D' - D| ≤ 140 * E * T := p2
    linarith
  have hpos' : 0 < N' ^ 2 + D' ^ 2 := by
    have h1 : |√(N' ^ 2 + D' ^ 2) - √(N ^ 2 + D ^ 2)| ≤ 280 * (E * T) :=
      (norm2_near (N', D') (N, D)).trans hsum
    have h2 := (abs_le.1 h1).1
    have h3 : 0 < √(N' ^ 2 + D' ^ 2) := by linarith
    exact sqrt_pos.1 h3
  obtain ⟨g, hg, hge'⟩ := tangent_value hL (-N') D' (by rw [neg_sq]; exact hpos')
  refine ⟨g, hg, ?_⟩
  have hst : steep (-N') D' = steep N' D' := by unfold steep; rw [abs_neg, neg_sq]
  rw [hst] at hge'
  have hnear := steep_near hsum hpos hpos'
  have h4 : 2 * (280 * (E * T)) / √(N ^ 2 + D ^ 2) ≤ 793 * E * (T / m) := by
    rw [mul_div_assoc', div_le_div_iff₀ (sqrt_pos.2 hpos) hp]
    have hET : 0 ≤ E * T := mul_nonneg hE0 hT0.le
    have k1 := mul_le_mul_of_nonneg_left hlen hET
    have k2 := mul_nonneg hET (sqrt_nonneg (N ^ 2 + D ^ 2))
    linarith
  have h5 : u ≤ E * (T / m) := by
    have k1 : 1 ≤ T / m := (one_le_div hp).2 hT
    have k2 : u ≤ E := by
      have : u / cos (rad i) ≤ E := by rw [← eE]; nlinarith
      linarith
    have := mul_le_mul_of_nonneg_left k1 hE0
    linarith
  have := abs_sub_le g (steep N' D') (steep N D)
  linarith

/-- The exact gradient. -/
theorem ring_exact (k p dx dy i t : ℝ) (hk : 0 < k) (hi0 : 0 ≤ i) (hi : i < 90) (hp : p ≠ dx ∨ dy ≠ 0) :
    Notebook.ringGradient (.fin (k * p)) (.fin (k * dx)) (.fin (k * dy)) (.fin i) (.fin t) =
      .fin (steep (rise i t (k * (p - dx)) (k * -dy)) (run i t (k * (p - dx)) (k * -dy))) := by
  have hκ : 0 < cos (rad i) := cos_deg_pos hi0 hi
  have hJ : 1 ≤ 1 / cos (rad i) ^ 2 := by
    rw [le_div_iff₀ (by positivity), one_mul]
    exact pow_le_one₀ hκ.le (cos_le_one _)
  have hge := stretched_ge (cos (rad t)) (sin (rad t)) (1 / cos (rad i) ^ 2) (p - dx) (-dy) (sin_sq_add_cos_sq _) hJ
  rw [ringGradient_eq k p dx dy i t hk hi0 hi (rise i t (p - dx) (-dy)) (run i t (p - dx) (-dy))
    (by unfold rise; ring) (by unfold run; ring)]
  have hm : 0 < |p - dx| + |(-dy)| := by
    rcases hp with h | h
    · have := abs_pos.2 (sub_ne_zero.2 h)
      positivity
    · have := abs_pos.2 (neg_ne_zero.2 h)
      positivity
  rw [if_neg]
  · unfold steep
    rw [show rise i t (k * (p - dx)) (k * -dy) = k * rise i t (p - dx) (-dy) by unfold rise; ring,
      show run i t (k * (p - dx)) (k * -dy) = k * run i t (p - dx) (-dy) by unfold run; ring, abs_mul, abs_of_pos hk,
      show (k * rise i t (p - dx) (-dy)) ^ 2 + (k * run i t (p - dx) (-dy)) ^ 2 =
        k ^ 2 * (rise i t (p - dx) (-dy) ^ 2 + run i t (p - dx) (-dy) ^ 2) by ring, sqrt_mul (sq_nonneg k),
      sqrt_sq hk.le, mul_div_mul_left _ _ hk.ne', add_comm (run i t (p - dx) (-dy) ^ 2)]
  · rintro ⟨h1, h2⟩
    have e1 : (p - dx) * (cos (rad t) ^ 2 + sin (rad t) ^ 2 * (1 / cos (rad i) ^ 2)) +
      cos (rad t) * sin (rad t) * (1 - 1 / cos (rad i) ^ 2) * -dy = 0 := h1
    have e2 : -dy * (sin (rad t) ^ 2 + cos (rad t) ^ 2 * (1 / cos (rad i) ^ 2)) +
      cos (rad t) * sin (rad t) * (1 - 1 / cos (rad i) ^ 2) * (p - dx) = 0 := h2
    rw [e1, e2] at hge
    nlinarith

/-- A star at `p` on the path sees the edge of a disk of radius `a`, inclination `i` and tilt `t`, centred on
`(dx, dy)` and scaled to pass through the star, under an angle with sine `σ`. -/
def Spec.SeenAt (dx dy a i t p σ : ℝ) : Prop :=
  ∃ l φ tx ty, 0 < l ∧ p = dx + l * (tilted a (a * cos (rad i)) (rad t) φ).1 ∧
    0 = dy + l * (tilted a (a * cos (rad i)) (rad t) φ).2 ∧
    HasDerivAt (fun θ => dx + l * (tilted a (a * cos (rad i)) (rad t) θ).1) tx φ ∧
    HasDerivAt (fun θ => dy + l * (tilted a (a * cos (rad i)) (rad t) θ).2) ty φ ∧ σ = |ty| / √(tx ^ 2 + ty ^ 2)

theorem seen_steep {dx dy a i t p σ k : ℝ} (hk : 0 < k) (ha : 0 < a) (hi0 : 0 ≤ i) (hi : i < 90)
    (h : SeenAt dx dy a i t p σ) (hp : p ≠ dx ∨ dy ≠ 0) :
    steep (rise i t (k * (p - dx)) (k * -dy)) (run i t (k * (p - dx)) (k * -dy)) = σ := by
  obtain ⟨l, φ, tx, ty, hl, e1, e2, d1, d2, rfl⟩ := h
  have := (C112_formula k dx dy a i t p hk ha hi0 hi).2 l φ tx ty hl e1 e2 d1 d2
  rw [ring_exact k p dx dy i t hk hi0 hi hp] at this
  exact XF.fin.inj this

/-- **C126** In floating point `ring_gradients` computes the |sin| of the angle between edge and path up to `800 u`
over the cubed cosine of the inclination: anywhere on the path but at the centre of the disk, also where the edge is
vertical.  At the centre it is NaN. -/
theorem C126_curve (L : FloatLib ℝ) (u : ℝ) (hL : Accurate L u) (p dx dy a i t σ : ℝ) (ha : 0 < a) (hi0 : 0 ≤ i)
    (hi : i < 90) (ht : |t| ≤ 180) (hu1 : 1000 * u ≤ cos (rad i) ^ 3) :
    (p ≠ dx ∨ dy ≠ 0 → SeenAt dx dy a i t p σ →
      ∃ g, NotebookRounded.ringGradient L (.fin p) (.fin dx) (.fin dy) (.fin i) (.fin t) = .fin g ∧
        |g - σ| ≤ 800 * (u / cos (rad i) ^ 3)) ∧
    (p = dx ∧ dy = 0 →
      NotebookRounded.ringGradient L (.fin p) (.fin dx) (.fin dy) (.fin i) (.fin t) = .nan) := by
  have hu := hL.nonneg
  have hκ : 0 < cos (rad i) := cos_deg_pos hi0 hi
  have hκ3 : 0 < cos (rad i) ^ 3 := by positivity
  constructor
  · intro hp hσ
    have hm : 0 < |p - dx| + |(-dy)| := by
      rcases hp with h | h
      · have := abs_pos.2 (sub_ne_zero.2 h)
        positivity
      · have := abs_pos.2 (neg_ne_zero.2 h)
        positivity
    have e := seen_steep one_pos ha hi0 hi hσ hp
    simp only [one_mul] at e
    obtain ⟨g, hg, n⟩ := ring_value hL p dx dy i t (p - dx) (-dy) (|p - dx| + |(-dy)|) hi0 hi ht
      ((hL.rnd _).trans (mul_le_mul_of_nonneg_left (by linarith [abs_nonneg (-dy)]) hu))
      (by
        rw [mul_one]
        exact (hL.rnd _).trans (mul_le_mul_of_nonneg_left (by linarith [abs_nonneg (p - dx)]) hu))
      le_rfl hm (by
        rw [← mul_assoc]
        refine mul_le_of_le_one_left hm.le ?_
        rw [mul_div_assoc', div_le_one hκ3]
        exact hu1)
    rw [e, div_self hm.ne', mul_one] at n
    exact ⟨g, hg, n⟩
  · rintro ⟨rfl, rfl⟩
    have h0 : L.rnd 0 = 0 := by
      have := hL.rnd 0
      rw [abs_zero, mul_zero, sub_zero] at this
      exact abs_eq_zero.1 (le_antisymm this (abs_nonneg _))
    unfold NotebookRounded.ringGradient
    simp only [degrees_fin, L.cos_fin, L.sin_fin, L.sq_fin, L.sub_fin, XF.neg_fin, L.mul_fin, sub_self, neg_zero,
      zero_mul, h0]
    have z1 : ∀ a : XF ℝ, L.mul (.fin 0) a = .fin 0 ∨ L.mul (.fin 0) a = .nan := fun a => by
      cases a <;> simp [FloatLib.mul, XF.mul, XF.infSign, XF.round, h0]
    have z2 : ∀ a : XF ℝ, L.mul a (.fin 0) = .fin 0 ∨ L.mul a (.fin 0) = .nan := fun a => by
      cases a <;> simp [FloatLib.mul, XF.mul, XF.infSign, XF.round, h0]
    have z3 : ∀ a b : XF ℝ, (a = .fin 0 ∨ a = .nan) → (b = .fin 0 ∨ b = .nan) → L.add a b = .fin 0 ∨ L.add a b = .nan := by
      rintro a b (rfl | rfl) (rfl | rfl) <;> simp [FloatLib.add, XF.add, XF.round, h0]
    have z4 : ∀ a b : XF ℝ, (a = .fin 0 ∨ a = .nan) → (b = .fin 0 ∨ b = .nan) → L.div a.neg b = .nan := by
      rintro a b (rfl | rfl) (rfl | rfl) <;> simp [FloatLib.div, XF.div, XF.neg, XF.infSign, XF.round]
    rw [z4 _ _ (z3 _ _ (z1 _) (z2 _)) (z3 _ _ (z1 _) (z2 _))]
    rfl

/-- **C126** The curve that is drawn for a solution, with the positions and the centre of the disk scaled in floating
point as well, whatever the scale. -/
theorem C126_solution (L : FloatLib ℝ) (u : ℝ) (hL : Accurate L u) (k q σ a : ℝ) (row : Shallot.Solution ℝ)
    {dx dy i t : ℝ} (hdx : row.dx = .fin dx) (hdy : row.dy = .fin dy) (hinc : row.inclination = .fin i)
    (htilt : row.tilt = .fin t) (hk : 0 < k) (ha : 0 < a) (hi0 : 0 ≤ i) (hi : i < 90) (ht : |t| ≤ 180)
    (hp : q ≠ dx ∨ dy ≠ 0)
    (hu1 : 3000 * u * (|q| + |dx| + |dy|) ≤ cos (rad i) ^ 3 * (|q - dx| + |dy|)) (hσ : SeenAt dx dy a i t q σ) :
    ∃ g, NotebookRounded.solutionGradient L (.fin k) (L.mul (.fin k) (.fin q)) row = .fin g ∧
      |g - σ| ≤ 2400 * (u / cos (rad i) ^ 3) * ((|q| + |dx| + |dy|) / (|q - dx| + |dy|)) := by
  have hu := hL.nonneg
  have hκ : 0 < cos (rad i) := cos_deg_pos hi0 hi
  have hκ3 : 0 < cos (rad i) ^ 3 := by positivity
  have hκ1 : cos (rad i) ^ 3 ≤ 1 := pow_le_one₀ hκ.le (cos_le_one _)
  have hm : 0 < |q - dx| + |dy| := by
    rcases hp with h | h
    · have := abs_pos.2 (sub_ne_zero.2 h)
      positivity
    · have := abs_pos.2 h
      positivity
  have hle : |q - dx| ≤ |q| + |dx| := abs_sub _ _
  have hS : 0 < |q| + |dx| + |dy| := by linarith
  have hu2 : 1000 * u ≤ 1 := by
    by_contra hcon
    have k1 := mul_lt_mul_of_pos_right (not_le.1 hcon) hS
    have k2 := mul_le_mul_of_nonneg_right hκ1 hm.le
    linarith
  unfold NotebookRounded.solutionGradient
  rw [hdx, hdy, hinc, htilt, L.mul_fin, L.mul_fin, L.mul_fin]
  have e := seen_steep hk ha hi0 hi hσ hp
  have eT : |k * (q - dx)| + |k * -dy| = k * (|q - dx| + |dy|) := by
    rw [abs_mul, abs_mul, abs_of_pos hk, abs_neg]; ring
  have h1 := hL.rnd (k * q)
  have h2 := hL.rnd (k * dx)
  have h3 := hL.rnd (k * dy)
  rw [abs_mul, abs_of_pos hk] at h1 h2 h3
  have kq := mul_nonneg hk.le (abs_nonneg q)
  have kx := mul_nonneg hk.le (abs_nonneg dx)
  have ky := mul_nonneg hk.le (abs_nonneg dy)
  have hx : AbsNear (u * (3 * (k * (|q| + |dx| + |dy|)))) (L.rnd (L.rnd (k * q) - L.rnd (k * dx))) (k * (q - dx)) := by
    have k1 : AbsNear (u * (k * |q|) + u * (k * |dx|)) (L.rnd (k * q) - L.rnd (k * dx)) (k * (q - dx)) := by
      unfold AbsNear
      rw [show L.rnd (k * q) - L.rnd (k * dx) - k * (q - dx) = (L.rnd (k * q) - k * q) - (L.rnd (k * dx) - k * dx) by ring]
      exact (abs_sub _ _).trans (add_le_add h1 h2)
    have k2 : |k * (q - dx)| ≤ k * |q| + k * |dx| := by
      rw [abs_mul, abs_of_pos hk, ← mul_add]
      exact mul_le_mul_of_nonneg_left hle hk.le
    refine (absNear_rnd hL.rnd hu k1 k2).mono ?_
    have k3 : u * (u * (k * |q|) + u * (k * |dx|)) ≤ 1 * (u * (k * |q|) + u * (k * |dx|)) :=
      mul_le_mul_of_nonneg_right (by linarith) (by positivity)
    have k4 := mul_nonneg hu ky
    linarith
  have hy : AbsNear (u * (3 * (k * (|q| + |dx| + |dy|)))) (L.rnd (-L.rnd (k * dy) * 1)) (k * -dy) := by
    have k1 : AbsNear (u * (k * |dy|)) (-L.rnd (k * dy) * 1) (k * -dy) := by
      unfold AbsNear
      rw [show -L.rnd (k * dy) * 1 - k * -dy = -(L.rnd (k * dy) - k * dy) by ring, abs_neg]
      exact h3
    have k2 : |k * -dy| ≤ k * |dy| := by rw [abs_mul, abs_of_pos hk, abs_neg]
    refine (absNear_rnd hL.rnd hu k1 k2).mono ?_
    have k3 : u * (u * (k * |dy|)) ≤ 1 * (u * (k * |dy|)) := mul_le_mul_of_nonneg_right (by linarith) (by positivity)
    have k4 := mul_nonneg hu kq
    have k5 := mul_nonneg hu kx
    linarith
  obtain ⟨g, hg, n⟩ := ring_value hL _ _ _ i t _ _ _ hi0 hi ht hx hy
    (by rw [eT]; have := mul_le_mul_of_nonneg_left hle hk.le; linarith)
    (by rw [eT]; exact mul_pos hk hm)
    (by
      rw [eT]
      have k1 : u / cos (rad i) ^ 3 * (3000 * (|q| + |dx| + |dy|)) ≤ |q - dx| + |dy| := by
        rw [div_mul_eq_mul_div, div_le_iff₀ hκ3]
        linarith
      have := mul_le_mul_of_nonneg_left k1 hk.le
      linarith)
  refine ⟨g, hg, ?_⟩
  rw [e, eT] at n
  have e2 : 3 * (k * (|q| + |dx| + |dy|)) / (k * (|q - dx| + |dy|)) = 3 * ((|q| + |dx| + |dy|) / (|q - dx| + |dy|)) := by
    field_simp
  rw [e2] at n
  linarith

/-- **C126** The point of the curve is drawn at its time, up to a relative error of `5 u`. -/
theorem C126_times (L : FloatLib ℝ) (u : ℝ) (hL : Accurate L u) (hu1 : 1000 * u ≤ 1) (V D q : ℝ) (hV : 0 < V) :
    ∃ P τ, NotebookRounded.curvePoint L (.fin V) (.fin D) (.fin q) = (.fin P, .fin τ) ∧
      L.mul (NotebookRounded.scale L (.fin V) (.fin D)) (.fin q) = .fin P ∧ RelNear (5 * u) τ (-(D * q)) := by
  have hu := hL.nonneg
  have h1 : RelNear (1 * u) (L.rnd (V * D)) (V * D) := RelNear.rnd_self hL.rnd _
  have h2 : RelNear (3 * u) (L.rnd (L.rnd (V * D) * q)) (V * D * q) :=
    (h1.mul_right q).rnd hL.rnd hu (by linarith) (by norm_num)
  have h3 : RelNear (3 * u) (-L.rnd (L.rnd (V * D) * q) / V) (-(D * q)) := by
    have := (RelNear.neg h2).mul_right (1 / V)
    rw [show -(V * D * q) * (1 / V) = -(D * q) by field_simp, ← div_eq_mul_one_div] at this
    exact this
  refine ⟨_, _, ?_, rfl, h3.rnd hL.rnd hu (by linarith) (by norm_num)⟩
  unfold NotebookRounded.curvePoint NotebookRounded.scale
  simp only [L.mul_fin, XF.neg_fin, L.div_fin _ _ hV.ne']

/-- **C126** With double precision and inclinations up to 80 degrees the error is below `10⁻⁹`. -/
theorem C126_double (L : FloatLib ℝ) (u : ℝ) (hL : Accurate L u) (hu : u ≤ 1 / 2 ^ 50) (p dx dy a i t σ : ℝ)
    (ha : 0 < a) (hi0 : 0 ≤ i) (hi : i ≤ 80) (ht : |t| ≤ 180) (hp : p ≠ dx ∨ dy ≠ 0) (hσ : SeenAt dx dy a i t p σ) :
    ∃ g, NotebookRounded.ringGradient L (.fin p) (.fin dx) (.fin dy) (.fin i) (.fin t) = .fin g ∧
      |g - σ| ≤ 1 / 10 ^ 9 := by
  have hu0 := hL.nonneg
  have hc : 1 / 9 ≤ cos (rad i) := by
    have h0 : 0 ≤ rad i := by unfold rad; positivity
    have h1 : rad i ≤ π / 2 := by unfold rad; nlinarith [pi_pos]
    have h2 := one_sub_mul_le_cos h0 h1
    have h3 : 2 / π * rad i ≤ 8 / 9 := by
      unfold rad
      rw [show 2 / π * (i * (π / 180)) = i / 90 by field_simp; ring]
      linarith
    linarith
  have hc3 : (1 / 9 : ℝ) ^ 3 ≤ cos (rad i) ^ 3 := pow_le_pow_left₀ (by norm_num) hc 3
  obtain ⟨g, hg, n⟩ := (C126_curve L u hL p dx dy a i t σ ha hi0 (by linarith) ht (by
    have : (1000 : ℝ) * (1 / 2 ^ 50) ≤ (1 / 9) ^ 3 := by norm_num
    linarith)).1 hp hσ
  refine ⟨g, hg, n.trans ?_⟩
  have h4 : u / cos (rad i) ^ 3 ≤ (1 / 2 ^ 50) / (1 / 9) ^ 3 := div_le_div₀ (by norm_num) hu (by norm_num) hc3
  have h5 : 800 * ((1 / 2 ^ 50) / (1 / 9 : ℝ) ^ 3) ≤ 1 / 10 ^ 9 := by norm_num
  linarith

/-- A face-on disk of radius one whose centre is one below the path, seen by the star at `(1, 0)`: the edge through
the star has the direction `(1, -1)`. -/
example : ∃ σ, SeenAt 0 (-1) 1 0 0 1 σ ∧ Accurate .double (1 / 2 ^ 53) ∧
    1000 * (1 / 2 ^ 53 : ℝ) ≤ cos (rad 0) ^ 3 ∧
    3000 * (1 / 2 ^ 53 : ℝ) * (|(1 : ℝ)| + |(0 : ℝ)| + |(-1 : ℝ)|) ≤ cos (rad 0) ^ 3 * (|(1 : ℝ) - 0| + |(-1 : ℝ)|) := by
  have hr : rad 0 = 0 := by unfold rad; ring
  refine ⟨_, ⟨√2, π / 4, -(√2 * sin (π / 4)), √2 * cos (π / 4), by positivity, ?_, ?_, ?_, ?_, rfl⟩, double_accurate, ?_, ?_⟩
  · simp only [tilted, hr, cos_zero, sin_zero, cos_pi_div_four]
    nlinarith [mul_self_sqrt (show (0 : ℝ) ≤ 2 by norm_num)]
  · simp only [tilted, hr, cos_zero, sin_zero, sin_pi_div_four]
    nlinarith [mul_self_sqrt (show (0 : ℝ) ≤ 2 by norm_num)]
  · simp only [tilted, hr, cos_zero, sin_zero]
    have := ((hasDerivAt_cos (π / 4)).const_mul √2).const_add 0
    rw [show (fun θ : ℝ => (0 : ℝ) + √2 * (1 * cos θ * 1 - 1 * 1 * sin θ * 0)) = fun x => 0 + √2 * cos x by
      funext θ; ring, ← mul_neg]
    exact this
  · simp only [tilted, hr, cos_zero, sin_zero]
    have := ((hasDerivAt_sin (π / 4)).const_mul √2).const_add (-1)
    rw [show (fun θ : ℝ => (-1 : ℝ) + √2 * (1 * cos θ * 0 + 1 * 1 * sin θ * 1)) = fun x => -1 + √2 * sin x by
      funext θ; ring]
    exact this
  · rw [hr, cos_zero]; norm_num
  · rw [hr, cos_zero]; norm_num

end Beyonce
