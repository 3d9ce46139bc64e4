import Verif.NotebookData
import Verif.Props.Notebook
import Verif.Props.NotebookRings

/-!
# C124: the disks of the papers
-/

set_option linter.unusedSectionVars false

namespace Beyonce
open Spec Geometry Real

/-- The disk of a paper, in the picture of the paper: the star moves to the right along the axis, one unit a day,
and passes the centre of the disk at the time `dx` and at the distance `dy` above it.  `p` is a point of the unit
disk, which is inclined by `i` and turned by `t` degrees. -/
noncomputable def Spec.paperPoint (dx dy ρ i t : ℝ) (p : Pt) : Pt :=
  (dx + ρ * (p.1 * cos (rad t) - p.2 * cos (rad i) * sin (rad t)),
    -dy + ρ * (p.1 * sin (rad t) + p.2 * cos (rad i) * cos (rad t)))

/-- The ring, drawn around `(x, y)`, covers the point `q`. -/
def Spec.CoversPoint (ring : RingObj ℝ) (x y : PyVal ℝ) (q : Pt) : Prop :=
  ∃ (p : Pt) (P : Patch Unit), p.1 ^ 2 + p.2 ^ 2 < 1 ∧
    getPatch [p] [] ring x y (.str "k") = .ok (some P) ∧ P.outer = [q]

/-- The outer edge of the ring, drawn around `(x, y)`, passes through the point `q`. -/
def Spec.EdgeThrough (ring : RingObj ℝ) (x y : PyVal ℝ) (q : Pt) : Prop :=
  ∃ (p : Pt) (P : Patch Unit), p.1 ^ 2 + p.2 ^ 2 = 1 ∧
    getPatch [p] [] ring x y (.str "k") = .ok (some P) ∧ P.outer = [q]

theorem rad_flip (t : ℝ) : rad (180 - t) = π - rad t := by unfold rad; ring

theorem deg2rad_rad (t : ℝ) : deg2rad t = rad t := by unfold deg2rad rad; ring

section
variable (V D star : ℝ) (hV : 0 < V) (hD : 0 < D) (hstar : 0 < star)
include hV hD hstar

theorem transverse_fin : Notebook.transverseVelocity (.fin V) (.fin star) = .fin (V * 86400 / star) := by
  unfold Notebook.transverseVelocity
  rw [XF.mul_fin, XF.div_fin _ _ hstar.ne']

theorem shift_fin (x : ℝ) : Notebook.paperShift (.fin x) (.fin D) = .fin (-x / D) := by
  unfold Notebook.paperShift
  rw [XF.div_fin _ _ hD.ne', XF.neg_fin, neg_div]

/-- **C124** The disk radius of the first notebook is that of the paper: in days, in which the star moves `V`
kilometres a second. -/
theorem C124_radius (R : ℝ) :
    Notebook.paperRadius (.fin R) (.fin star) (.fin D) (.fin V) =
      Notebook.paperRadiusDays (.fin (R / (V * 86400))) (.fin D) := by
  unfold Notebook.paperRadius Notebook.paperRadiusDays
  rw [transverse_fin V D star hV hD hstar, XF.div_fin _ _ hstar.ne', XF.div_fin _ _ hD.ne',
    XF.div_fin _ _ (by positivity), XF.div_fin _ _ hD.ne']
  congr 1
  field_simp

/-- **C124** The ring system that is drawn for the disk of a paper is this disk seen from behind, on the scale of
the star: it covers a point of the picture exactly if the disk of the paper covers the mirrored point, and its edge
passes through it exactly if the edge of the disk does.  `ρ` is the radius of the disk in days. -/
theorem C124_disk (ρ i t dx dy : ℝ) (hi0 : 0 ≤ i) (hi : i ≤ 90) (ht0 : 0 ≤ t) (ht : t ≤ 360)
    (hρ : 1 / 10 ^ 16 < V * 86400 / star * ρ) :
    ∃ sys ring, Notebook.ringSystem (Notebook.scale (Notebook.transverseVelocity (.fin V) (.fin star)) (.fin D))
        (Notebook.paperDisk (Notebook.paperRadiusDays (.fin ρ) (.fin D)) (.fin i) (.fin t) (.fin dx) (.fin dy)
          (.fin D)) = .ok sys ∧ sys.rings = [ring] ∧
      ∀ x y : ℝ,
        (CoversPoint ring
          (.npFloat .w64 ((Notebook.scale (Notebook.transverseVelocity (.fin V) (.fin star)) (.fin D)).mul
            (Notebook.paperShift (.fin dx) (.fin D))))
          (.npFloat .w64 ((Notebook.scale (Notebook.transverseVelocity (.fin V) (.fin star)) (.fin D)).mul
            (Notebook.paperShift (.fin dy) (.fin D))))
          (-(V * 86400 / star * x), V * 86400 / star * y) ↔
            ∃ p : Pt, p.1 ^ 2 + p.2 ^ 2 < 1 ∧ paperPoint dx dy ρ i t p = (x, y)) ∧
        (EdgeThrough ring
          (.npFloat .w64 ((Notebook.scale (Notebook.transverseVelocity (.fin V) (.fin star)) (.fin D)).mul
            (Notebook.paperShift (.fin dx) (.fin D))))
          (.npFloat .w64 ((Notebook.scale (Notebook.transverseVelocity (.fin V) (.fin star)) (.fin D)).mul
            (Notebook.paperShift (.fin dy) (.fin D))))
          (-(V * 86400 / star * x), V * 86400 / star * y) ↔
            ∃ p : Pt, p.1 ^ 2 + p.2 ^ 2 = 1 ∧ paperPoint dx dy ρ i t p = (x, y)) := by
  have hv : 0 < V * 86400 / star := by positivity
  unfold Notebook.paperDisk Notebook.paperRadiusDays Notebook.paperTilt Notebook.scale
  rw [transverse_fin V D star hV hD hstar, XF.mul_fin, shift_fin V D star hV hD hstar, shift_fin V D star hV hD hstar,
    XF.div_fin _ _ hD.ne', XF.sub_fin, XF.mul_fin, XF.mul_fin]
  generalize V * 86400 / star = v at *
  have e1 : v * D * (-dx / D) = -(v * dx) := by field_simp
  have e2 : v * D * (-dy / D) = -(v * dy) := by field_simp
  have e3 : v * D * (ρ / D) = v * ρ := by field_simp
  have hsys := C113_system (v * D) (ρ / D) i (180 - t) .nan (.fin (-dx / D)) (.fin (-dy / D)) hi0 hi (by linarith)
    (by linarith) (by rw [e3]; exact hρ)
  rw [e3] at hsys
  refine ⟨_, _, hsys, rfl, fun x y => ?_⟩
  rw [e1, e2]
  have hP : ∀ p : Pt, getPatch [p] ([] : List Unit)
      ⟨.fin (1 / 10 ^ 16), .fin (v * ρ), .fin (9 / 10), .fin i, .fin (180 - t)⟩
      (.npFloat .w64 (.fin (-(v * dx)))) (.npFloat .w64 (.fin (-(v * dy)))) (.str "k") =
      .ok (some ⟨[outerVertex (v * ρ) (deg2rad i) (deg2rad (180 - t)) (-(v * dx), -(v * dy)) p],
        [innerVertex (1 / 10 ^ 16) (deg2rad i) (deg2rad (180 - t)) (-(v * dx), -(v * dy)) p], [] ++ [], 1 - 9 / 10⟩) :=
    fun p => rfl
  have hout : ∀ p : Pt, outerVertex (v * ρ) (deg2rad i) (deg2rad (180 - t)) (-(v * dx), -(v * dy)) p =
      (-(v * x), v * y) ↔ paperPoint dx dy ρ i t p = (x, y) := by
    intro p
    simp only [outerVertex, rotateRow, paperPoint, deg2rad_rad, rad_flip, cos_pi_sub, sin_pi_sub, Prod.mk.injEq]
    constructor
    · rintro ⟨h1, h2⟩
      constructor
      · apply mul_left_cancel₀ hv.ne'; linear_combination -h1
      · apply mul_left_cancel₀ hv.ne'; linear_combination h2
    · rintro ⟨h1, h2⟩
      constructor
      · linear_combination -v * h1
      · linear_combination v * h2
  have key : ∀ Q : ℝ → Prop, (∃ (p : Pt) (P : Patch Unit), Q (p.1 ^ 2 + p.2 ^ 2) ∧
      getPatch [p] [] ⟨.fin (1 / 10 ^ 16), .fin (v * ρ), .fin (9 / 10), .fin i, .fin (180 - t)⟩
      (.npFloat .w64 (.fin (-(v * dx)))) (.npFloat .w64 (.fin (-(v * dy)))) (.str "k") = .ok (some P) ∧
      P.outer = [(-(v * x), v * y)]) ↔
      ∃ p : Pt, Q (p.1 ^ 2 + p.2 ^ 2) ∧ paperPoint dx dy ρ i t p = (x, y) := by
    intro Q
    constructor
    · rintro ⟨p, P, q1, q2, q3⟩
      rw [hP] at q2
      cases q2
      exact ⟨p, q1, (hout p).1 (by simpa using q3)⟩
    · rintro ⟨p, q1, q2⟩
      exact ⟨p, _, q1, hP p, by rw [(hout p).2 q2]⟩
  exact ⟨key (· < 1), key (· = 1)⟩

/-- **C124** The curve that is drawn for the disk of a paper has at every time the gradient of the edge of this
disk where the star is: the disk being scaled about its centre by `l` to pass through the star.  Only when the star
is at the centre of the disk there is no curve. -/
theorem C124_curve (r : XF ℝ) (ρ i t dx dy τ : ℝ) (hρ : 0 < ρ) (hi0 : 0 ≤ i) (hi : i < 90) (q : XF ℝ)
    (hq : (Notebook.curvePoint (Notebook.transverseVelocity (.fin V) (.fin star)) (.fin D) q).2 = .fin τ) :
    (τ = dx ∧ dy = 0 →
      Notebook.solutionGradient (Notebook.scale (Notebook.transverseVelocity (.fin V) (.fin star)) (.fin D))
        (Notebook.curvePoint (Notebook.transverseVelocity (.fin V) (.fin star)) (.fin D) q).1
        (Notebook.paperDisk r (.fin i) (.fin t) (.fin dx) (.fin dy) (.fin D)) = .nan) ∧
    ∀ l φ tx ty : ℝ, 0 < l → paperPoint dx dy (l * ρ) i t (cos φ, sin φ) = (τ, 0) →
      HasDerivAt (fun θ => (paperPoint dx dy (l * ρ) i t (cos θ, sin θ)).1) tx φ →
      HasDerivAt (fun θ => (paperPoint dx dy (l * ρ) i t (cos θ, sin θ)).2) ty φ →
      Notebook.solutionGradient (Notebook.scale (Notebook.transverseVelocity (.fin V) (.fin star)) (.fin D))
        (Notebook.curvePoint (Notebook.transverseVelocity (.fin V) (.fin star)) (.fin D) q).1
        (Notebook.paperDisk r (.fin i) (.fin t) (.fin dx) (.fin dy) (.fin D)) =
          .fin (|ty| / √(tx ^ 2 + ty ^ 2)) := by
  have hv : 0 < V * 86400 / star := by positivity
  rw [transverse_fin V D star hV hD hstar] at hq ⊢
  generalize V * 86400 / star = v at *
  rw [C112_times v D τ hv hD] at hq
  subst hq
  obtain ⟨c1, c2⟩ := C112_formula (v * D) (-dx / D) (-dy / D) ρ i (180 - t) (-τ / D) (mul_pos hv hD) hρ hi0 hi
  have e : Notebook.solutionGradient (Notebook.scale (.fin v) (.fin D))
        (Notebook.curvePoint (.fin v) (.fin D) (.fin (-τ / D))).1
        (Notebook.paperDisk r (.fin i) (.fin t) (.fin dx) (.fin dy) (.fin D)) =
      Notebook.ringGradient (.fin (v * D * (-τ / D))) (.fin (v * D * (-dx / D))) (.fin (v * D * (-dy / D))) (.fin i)
        (.fin (180 - t)) := by
    unfold Notebook.solutionGradient Notebook.scale Notebook.curvePoint Notebook.paperDisk Notebook.paperTilt
      Notebook.scale
    simp only [shift_fin V D star hV hD hstar, XF.mul_fin, XF.sub_fin]
  rw [e]
  constructor
  · rintro ⟨rfl, rfl⟩
    exact c1 ⟨rfl, by simp⟩
  · intro l φ tx ty hl hp h1 h2
    simp only [paperPoint, Prod.mk.injEq] at hp h1 h2
    have f1 : ∀ θ, -dx / D + l / D * (tilted ρ (ρ * cos (rad i)) (rad (180 - t)) θ).1 =
        -(dx + l * ρ * (cos (-θ) * cos (rad t) - sin (-θ) * cos (rad i) * sin (rad t))) / D := by
      intro θ
      simp only [tilted, rad_flip, cos_pi_sub, sin_pi_sub, cos_neg, sin_neg]
      field_simp
      ring
    have f2 : ∀ θ, -dy / D + l / D * (tilted ρ (ρ * cos (rad i)) (rad (180 - t)) θ).2 =
        (-dy + l * ρ * (cos (-θ) * sin (rad t) + sin (-θ) * cos (rad i) * cos (rad t))) / D := by
      intro θ
      simp only [tilted, rad_flip, cos_pi_sub, sin_pi_sub, cos_neg, sin_neg]
      field_simp
    have hneg : HasDerivAt (fun θ : ℝ => -θ) (-1) (-φ) := hasDerivAt_neg (-φ)
    have g1 := ((HasDerivAt.comp (-φ) (by rw [neg_neg]; exact h1) hneg).neg).div_const D
    have g2 := (HasDerivAt.comp (-φ) (by rw [neg_neg]; exact h2) hneg).div_const D
    have := c2 (l / D) (-φ) (tx / D) (-ty / D) (div_pos hl hD) (by rw [f1, neg_neg, hp.1])
      (by rw [f2, neg_neg, hp.2, zero_div])
      (by
        simp only [f1]
        rw [show tx / D = -(tx * -1) / D by ring]
        exact g1)
      (by
        simp only [f2]
        rw [show -ty / D = ty * -1 / D by ring]
        exact g2)
    rw [this]
    congr 1
    have hsq : √((tx / D) ^ 2 + (-ty / D) ^ 2) = √(tx ^ 2 + ty ^ 2) / D := by
      rw [div_pow, div_pow, neg_sq, ← add_div, sqrt_div (by positivity), sqrt_sq hD.le]
    rw [hsq, abs_div, abs_neg, abs_of_pos hD]
    by_cases h0 : √(tx ^ 2 + ty ^ 2) = 0
    · rw [h0]; simp
    · field_simp

end

/-- The numbers of J1407: the radius in days, and a ring system that covers the star at a time exactly if the disk
of the paper does. -/
example : ∃ (sys : RSys ℝ) (ring : RingObj ℝ), Notebook.ringSystem
      (Notebook.scale (Notebook.transverseVelocity (.fin 33) (.fin 626130)) (.fin 54))
      (Notebook.paperDisk (Notebook.paperRadius (.fin 90200000) (.fin 626130) (.fin 54) (.fin 33)) (.fin 70)
        (.fin (1661 / 10)) (.fin (481 / 100)) (.fin (392 / 100)) (.fin 54)) = .ok sys ∧ sys.rings = [ring] := by
  rw [C124_radius 33 54 626130 (by norm_num) (by norm_num) (by norm_num)]
  obtain ⟨sys, ring, h1, h2, -⟩ := C124_disk 33 54 626130 (by norm_num) (by norm_num) (by norm_num)
    (90200000 / (33 * 86400)) 70 (1661 / 10) (481 / 100) (392 / 100) (by norm_num) (by norm_num) (by norm_num)
    (by norm_num) (by norm_num)
  exact ⟨sys, ring, h1, h2⟩

/-- A circle that the star passes at the distance of one day above the centre: a day later the edge through the
star has the gradient `1 / √2`. -/
example : Notebook.solutionGradient (Notebook.scale (Notebook.transverseVelocity (.fin 1) (.fin 86400)) (.fin 2))
      (Notebook.curvePoint (Notebook.transverseVelocity (.fin 1) (.fin 86400)) (.fin 2) (.fin (-1 / 2))).1
      (Notebook.paperDisk (.fin (1 / 2)) (.fin 0) (.fin 0) (.fin 0) (.fin 1) (.fin 2)) = .fin (1 / √2) := by
  have hq : (Notebook.curvePoint (Notebook.transverseVelocity (.fin 1) (.fin 86400)) (.fin 2)
      (.fin (-1 / 2 : ℝ))).2 = .fin 1 := by
    rw [transverse_fin 1 2 86400 one_pos two_pos (by norm_num)]
    exact (C112_times _ 2 1 (by norm_num) two_pos _).2 rfl
  have h2 : √2 * (√2 / 2) = 1 := by
    rw [mul_div_assoc', mul_self_sqrt (by norm_num)]; norm_num
  have hr : rad 0 = 0 := by unfold rad; ring
  have := (C124_curve 1 2 86400 one_pos two_pos (by norm_num) (.fin (1 / 2)) 1 0 0 0 1 1 one_pos le_rfl (by norm_num)
    _ hq).2 (√2) (π / 4) (-1) 1 (by positivity) (by
      simp only [paperPoint, hr, cos_zero, sin_zero, cos_pi_div_four, sin_pi_div_four, mul_one, mul_zero,
        sub_zero, zero_add, h2]
      norm_num)
    (by
      simp only [paperPoint, hr, cos_zero, sin_zero, mul_one, mul_zero, sub_zero, zero_add]
      have := (hasDerivAt_cos (π / 4)).const_mul (√2)
      rw [sin_pi_div_four, mul_neg, h2] at this
      exact this)
    (by
      simp only [paperPoint, hr, cos_zero, sin_zero, mul_one, mul_zero, zero_add]
      have := ((hasDerivAt_sin (π / 4)).const_mul (√2)).const_add (-1)
      rw [cos_pi_div_four, h2] at this
      exact this)
  rw [this]
  norm_num

end Beyonce
