import Verif.Notebook
import Verif.Props.Explained

/-!
# Property C112: the curves that the notebooks draw for the solutions

`ring_gradients` of the notebooks computes gradients from inclination and tilt, `_determine_disk_gradients` of
the grid from scale factors and shear.
-/

set_option linter.unusedSectionVars false

namespace Beyonce
open Spec Geometry Real

theorem deg2rad_fin (t : ℝ) : Notebook.deg2rad (.fin t) = .fin (rad t) := rfl

/-- What `ring_gradients` computes: the length of the vertical component over that of the normal vector of the
disk scaled to pass through the point; NaN at the centre. -/
theorem ringGradient_eq (k p dx dy i t : ℝ) (hk : 0 < k) (hi0 : 0 ≤ i) (hi : i < 90) (N D : ℝ)
    (hN : N = (p - dx) * (cos (rad t) ^ 2 + sin (rad t) ^ 2 / cos (rad i) ^ 2) +
      cos (rad t) * sin (rad t) * (1 - 1 / cos (rad i) ^ 2) * -dy)
    (hD : D = -dy * (sin (rad t) ^ 2 + cos (rad t) ^ 2 / cos (rad i) ^ 2) +
      cos (rad t) * sin (rad t) * (1 - 1 / cos (rad i) ^ 2) * (p - dx)) :
    Notebook.ringGradient (.fin (k * p)) (.fin (k * dx)) (.fin (k * dy)) (.fin i) (.fin t) =
      if N = 0 ∧ D = 0 then .nan else .fin (|N| / √(D ^ 2 + N ^ 2)) := by
  have hc : 0 < cos (rad i) := cos_deg_pos hi0 hi
  have hc2 : cos (rad i) * cos (rad i) ≠ 0 := (mul_pos hc hc).ne'
  unfold Notebook.ringGradient
  simp only [deg2rad_fin, XF.sin_fin, XF.cos_fin, XF.sub_fin, XF.neg_fin, XF.sq_fin, XF.mul_fin, XF.add_fin,
    XF.div_fin _ _ hc2]
  have e1 : -((k * p - k * dx) * (cos (rad t) * cos (rad t) + sin (rad t) * sin (rad t) /
      (cos (rad i) * cos (rad i))) + cos (rad t) * sin (rad t) * (1 - 1 / (cos (rad i) * cos (rad i))) *
      (-(k * dy) * 1)) = -(k * N) := by
    rw [hN]; ring
  have e2 : -(k * dy) * 1 * (sin (rad t) * sin (rad t) + cos (rad t) * cos (rad t) /
      (cos (rad i) * cos (rad i))) + cos (rad t) * sin (rad t) * (1 - 1 / (cos (rad i) * cos (rad i))) *
      (k * p - k * dx) = k * D := by
    rw [hD]; ring
  rw [e1, e2]
  by_cases h0 : D = 0
  · rw [h0, mul_zero]
    rcases lt_trichotomy N 0 with hn | hn | hn
    · rw [if_neg (by rintro ⟨h, -⟩; exact hn.ne h)]
      have : 0 < -(k * N) := by have := mul_neg_of_pos_of_neg hk hn; linarith
      have hs : √(0 ^ 2 + N ^ 2) = |N| := by rw [zero_pow two_ne_zero, zero_add, sqrt_sq_eq_abs]
      rw [hs, div_self (abs_ne_zero.2 hn.ne)]
      simp only [XF.div, if_true, XF.infSign, this, XF.arctan2, XF.sin_fin, XF.abs_fin]
      congr 1
      change |sin (π / 2)| = 1
      rw [sin_pi_div_two, abs_one]
    · rw [if_pos ⟨hn, rfl⟩, hn, mul_zero, neg_zero]
      simp [XF.div, XF.infSign, XF.arctan2, XF.sin, XF.abs]
    · rw [if_neg (by rintro ⟨h, -⟩; exact hn.ne' h)]
      have h1 : -(k * N) < 0 := by have := mul_pos hk hn; linarith
      have hs : √(0 ^ 2 + N ^ 2) = |N| := by rw [zero_pow two_ne_zero, zero_add, sqrt_sq_eq_abs]
      rw [hs, div_self (abs_ne_zero.2 hn.ne')]
      simp only [XF.div, if_true, XF.infSign, h1, not_lt.2 h1.le, if_false, XF.arctan2, XF.sin_fin, XF.abs_fin]
      congr 1
      change |sin (-(π / 2))| = 1
      rw [sin_neg, sin_pi_div_two, abs_neg, abs_one]
  · rw [if_neg (by rintro ⟨-, h⟩; exact h0 h), XF.div_fin _ _ (mul_ne_zero hk.ne' h0), XF.arctan2_fin, XF.sin_fin,
      XF.abs_fin]
    congr 1
    have hn : 0 < D ^ 2 + N ^ 2 := by positivity
    rw [← mul_neg, mul_div_mul_left _ _ hk.ne', abs_sin_arg, abs_div, abs_neg, div_pow, neg_sq,
      show 1 + N ^ 2 / D ^ 2 = (D ^ 2 + N ^ 2) / D ^ 2 by field_simp, sqrt_div hn.le, sqrt_sq_eq_abs]
    have := abs_pos.2 h0
    have := sqrt_pos.2 hn
    field_simp

/-- The tangent of a disk is not zero. -/
theorem tangent_ne {dx dy a i t l φ tx ty : ℝ} (hl : 0 < l) (ha : 0 < a) (hi0 : 0 ≤ i) (hi : i < 90)
    (h1 : HasDerivAt (fun θ => dx + l * (tilted a (a * cos (rad i)) (rad t) θ).1) tx φ)
    (h2 : HasDerivAt (fun θ => dy + l * (tilted a (a * cos (rad i)) (rad t) θ).2) ty φ) :
    ¬ (ty = 0 ∧ tx = 0) := by
  rintro ⟨h3', h4'⟩
  have hc : 0 < cos (rad i) := cos_deg_pos hi0 hi
  obtain ⟨k1, k2⟩ := tilted_deriv a (a * cos (rad i)) (rad t) φ
  have t1 := h1.unique ((k1.const_mul l).const_add dx)
  have t2 := h2.unique ((k2.const_mul l).const_add dy)
  have e := sin_sq_add_cos_sq (rad t)
  have eφ := sin_sq_add_cos_sq φ
  have hla : l * a ≠ 0 := (mul_pos hl ha).ne'
  have s1 : l * a * sin φ = 0 := by
    have : -(tx * cos (rad t) + ty * sin (rad t)) = l * a * sin φ := by
      rw [t1, t2]; linear_combination l * a * sin φ * e
    rw [← this, h3', h4']; ring
  have s2 : l * a * (cos (rad i) * cos φ) = 0 := by
    have : ty * cos (rad t) - tx * sin (rad t) = l * a * (cos (rad i) * cos φ) := by
      rw [t1, t2]; linear_combination l * a * (cos (rad i) * cos φ) * e
    rw [← this, h3', h4']; ring
  have s1' : sin φ = 0 := (mul_eq_zero.1 s1).resolve_left hla
  have s2' : cos φ = 0 := (mul_eq_zero.1 ((mul_eq_zero.1 s2).resolve_left hla)).resolve_left hc.ne'
  rw [s1', s2'] at eφ
  norm_num at eφ

/-- **C112** Wherever the pictures are scaled to, `ring_gradients` computes |sin| of the angle of the edge of the
disk with the path of the star, the disk being scaled to pass through the star: also where the edge is vertical.
Only at the centre of the disk it is NaN. -/
theorem C112_formula (k dx dy a i t p : ℝ) (hk : 0 < k) (ha : 0 < a) (hi0 : 0 ≤ i) (hi : i < 90) :
    (p = dx ∧ dy = 0 →
      Notebook.ringGradient (.fin (k * p)) (.fin (k * dx)) (.fin (k * dy)) (.fin i) (.fin t) = .nan) ∧
    ∀ l φ tx ty : ℝ, 0 < l →
      p = dx + l * (tilted a (a * cos (rad i)) (rad t) φ).1 →
      0 = dy + l * (tilted a (a * cos (rad i)) (rad t) φ).2 →
      HasDerivAt (fun θ => dx + l * (tilted a (a * cos (rad i)) (rad t) θ).1) tx φ →
      HasDerivAt (fun θ => dy + l * (tilted a (a * cos (rad i)) (rad t) θ).2) ty φ →
      Notebook.ringGradient (.fin (k * p)) (.fin (k * dx)) (.fin (k * dy)) (.fin i) (.fin t) =
        .fin (|ty| / √(tx ^ 2 + ty ^ 2)) := by
  have hc : 0 < cos (rad i) := cos_deg_pos hi0 hi
  constructor
  · rintro ⟨rfl, rfl⟩
    rw [ringGradient_eq k p p 0 i t hk hi0 hi 0 0 (by ring) (by ring), if_pos ⟨rfl, rfl⟩]
  · intro l φ tx ty hl e1 e2 h1 h2
    obtain ⟨k1, k2⟩ := tilted_deriv a (a * cos (rad i)) (rad t) φ
    have t1 := h1.unique ((k1.const_mul l).const_add dx)
    have t2 := h2.unique ((k2.const_mul l).const_add dy)
    unfold tilted at e1 e2
    simp only at e1 e2
    have e := sin_sq_add_cos_sq (rad t)
    have x1 : p - dx = l * (a * cos φ * cos (rad t) - a * cos (rad i) * sin φ * sin (rad t)) := by
      rw [e1]; ring
    have x2 : -dy = l * (a * cos φ * sin (rad t) + a * cos (rad i) * sin φ * cos (rad t)) := by linarith
    rw [ringGradient_eq k p dx dy i t hk hi0 hi (ty / cos (rad i)) (-tx / cos (rad i)) ?_ ?_]
    · have hne : ¬ (ty / cos (rad i) = 0 ∧ -tx / cos (rad i) = 0) := by
        rintro ⟨h3, h4⟩
        exact tangent_ne hl ha hi0 hi h1 h2 ⟨(div_eq_zero_iff.1 h3).resolve_right hc.ne',
          neg_eq_zero.1 ((div_eq_zero_iff.1 h4).resolve_right hc.ne')⟩
      rw [if_neg hne, div_pow, div_pow, neg_sq, ← add_div, sqrt_div (by positivity), sqrt_sq hc.le, abs_div,
        abs_of_pos hc, div_div_div_cancel_right₀ hc.ne']
    · rw [x1, x2, t2]
      field_simp
      linear_combination (-cos (rad i) * (cos φ * cos (rad t) * cos (rad i) - sin φ * sin (rad t))) * e
    · rw [x1, x2, t1]
      field_simp
      linear_combination (-cos (rad i) * (cos φ * sin (rad t) * cos (rad i) + sin φ * cos (rad t))) * e

/-- **C112** The gradient that the grid holds for a disk is the one that the notebooks compute for it, on
whatever scale, wherever it is a number.  Where it is NaN, the star is at the centre of the disk, and then the
notebooks have NaN too, or the edge is vertical, and then they have 1. -/
theorem C112_grid (k dx dy a i t p : ℝ) (v : XF ℝ) (hk : 0 < k) (ha : 0 < a) (hi0 : 0 ≤ i) (hi : i < 90)
    (h : TangentTo dx dy a i t p v) :
    (∀ w, v = .fin w →
      Notebook.ringGradient (.fin (k * p)) (.fin (k * dx)) (.fin (k * dy)) (.fin i) (.fin t) = .fin w) ∧
    (v = .nan →
      Notebook.ringGradient (.fin (k * p)) (.fin (k * dx)) (.fin (k * dy)) (.fin i) (.fin t) =
        if p = dx ∧ dy = 0 then .nan else .fin 1) := by
  obtain ⟨hcent, hform⟩ := C112_formula k dx dy a i t p hk ha hi0 hi
  rcases h with ⟨h1, h2, rfl⟩ | ⟨l, φ, tx, ty, hl, e1, e2, d1, d2, hz, hn⟩
  · refine ⟨fun w hw => ?_, fun _ => ?_⟩
    · cases hw
    · rw [if_pos ⟨h1, h2⟩]
      exact hcent ⟨h1, h2⟩
  · have hval := hform l φ tx ty hl e1 e2 d1 d2
    rw [hval]
    constructor
    · intro w hw
      by_cases h0 : tx = 0
      · rw [hz h0] at hw; cases hw
      · rw [hn h0] at hw; exact hw
    · intro hv
      have h0 : tx = 0 := by
        by_contra h0
        rw [hn h0] at hv
        cases hv
      rw [if_neg]
      · have hty : ty ≠ 0 := fun hty => tangent_ne hl ha hi0 hi d1 d2 ⟨hty, h0⟩
        rw [h0, zero_pow two_ne_zero, zero_add, sqrt_sq_eq_abs, div_self (abs_ne_zero.2 hty)]
      · rintro ⟨rfl, rfl⟩
        rw [hcent ⟨rfl, rfl⟩] at hval
        cases hval

/-- **C112** The curve of a disk is that of its mirror image below the path of the star: the loops of the
notebooks that leave out the solutions with `dy > 0` leave out no curve. -/
theorem C112_mirror (p dx dy i t : ℝ) (hi0 : 0 ≤ i) (hi : i < 90) :
    Notebook.ringGradient (.fin p) (.fin dx) (.fin (-dy)) (.fin i) (.fin (180 - t)) =
      Notebook.ringGradient (.fin p) (.fin dx) (.fin dy) (.fin i) (.fin t) := by
  have hr : rad (180 - t) = π - rad t := by unfold rad; ring
  have h1 := ringGradient_eq 1 p dx dy i t one_pos hi0 hi _ _ rfl rfl
  have h2 := ringGradient_eq 1 p dx (-dy) i (180 - t) one_pos hi0 hi
    ((p - dx) * (cos (rad t) ^ 2 + sin (rad t) ^ 2 / cos (rad i) ^ 2) +
      cos (rad t) * sin (rad t) * (1 - 1 / cos (rad i) ^ 2) * -dy)
    (-(-dy * (sin (rad t) ^ 2 + cos (rad t) ^ 2 / cos (rad i) ^ 2) +
      cos (rad t) * sin (rad t) * (1 - 1 / cos (rad i) ^ 2) * (p - dx)))
    (by rw [hr, sin_pi_sub, cos_pi_sub]; ring) (by rw [hr, sin_pi_sub, cos_pi_sub]; ring)
  simp only [one_mul] at h1 h2
  rw [h1, h2, neg_sq]
  simp only [neg_eq_zero]

/-! ## The curves of the solutions -/

theorem corrected_fin (V U σ : ℝ) (hV : 0 < V) (hU0 : 0 ≤ U) (hU : U ≤ 1) :
    Notebook.corrected (.fin V) (.fin U) (.fin σ) = .fin (σ * orbitalFactor V U) := by
  have hd : (12 : ℝ) - 12 * U + 3 * π * U ≠ 0 := by nlinarith [pi_gt_three]
  unfold Notebook.corrected
  simp only [XF.mul_fin, XF.sub_fin, XF.add_fin, XF.pi]
  change (((XF.fin π).div (.fin V)).mul (((XF.fin (6 - 2 * U))).div (.fin (12 - 12 * U + 3 * π * U)))).mul _ = _
  rw [XF.div_fin _ _ hV.ne', XF.div_fin _ _ hd, XF.mul_fin, XF.mul_fin]
  unfold orbitalFactor
  congr 1
  ring

/-- A point of the curves of the notebooks belongs to the time `τ` exactly if its position is where the star is
at that time. -/
theorem C112_times (V D τ : ℝ) (hV : 0 < V) (hD : 0 < D) (q : XF ℝ) :
    (Notebook.curvePoint (.fin V) (.fin D) q).2 = .fin τ ↔ q = .fin (-τ / D) := by
  have hVD : V * D ≠ 0 := (mul_pos hV hD).ne'
  unfold Notebook.curvePoint Notebook.scale
  cases q with
  | fin q =>
    simp only [XF.mul_fin, XF.neg_fin, XF.div_fin _ _ hV.ne', XF.fin.injEq]
    rw [show -(V * D * q) / V = -(D * q) by field_simp, eq_div_iff hD.ne']
    constructor <;> intro h <;> linarith
  | pinf => simp [XF.mul, XF.infSign, XF.neg, XF.div, mul_pos hV hD, not_lt.2 hV.le]
  | ninf =>
    simp [XF.mul, XF.infSign, XF.neg, XF.div, mul_pos hV hD, not_lt.2 (mul_pos hV hD).le, not_lt.2 hV.le]
  | nan => simp [XF.mul, XF.neg, XF.div]

/-- What a measurement adds to the misfit of the curve that the notebooks draw for a solution: `w` is the curve
at the time of the measurement, `c` the corrected slope. -/
def Spec.CurveMisfit (weighted : Bool) (D V U : ℝ) (row : Shallot.Solution ℝ) (q : Measurement ℝ) (z : ℝ) :
    Prop :=
  ∃ τ c ρ e w : ℝ, q.time = .fin τ ∧ Notebook.corrected (.fin V) (.fin U) q.slope = .fin c ∧
    q.transmission = .fin ρ ∧ q.error = .fin e ∧
    (∀ x, (Notebook.curvePoint (.fin V) (.fin D) x).2 = q.time →
      Notebook.solutionGradient (Notebook.scale (.fin V) (.fin D)) (Notebook.curvePoint (.fin V) (.fin D) x).1 row =
        .fin w) ∧
    c / ρ ≤ w ∧ z = (w - c / ρ) ^ 2 / (if weighted then e ^ 2 else 1)

section
variable (minX maxX numX minY maxY numY maxRf numRf : PyVal ℝ) (g : GridParams ℝ)
    (hg : GridParams.new minX maxX numX minY maxY numY maxRf numRf = .ok g) (a b c d m : ℝ)
    (ha : IsNumber false minX (.fin a)) (hb : IsNumber false maxX (.fin b))
    (hc : IsNumber false minY (.fin c)) (hd : IsNumber false maxY (.fin d))
    (hm : IsNumber false maxRf (.fin m))
    (hext : g.extendable = true → 2 ≤ g.sliceShape.1 ∧ 2 ≤ g.sliceShape.2) (v k : PyVal ℝ)
    (s : Shallot ℝ) (g' : GridParams ℝ) (h : Shallot.new v k g = (.ok s, g'))
include hg ha hb hc hd hm hext h

/-- **C112** Whatever has been called on the grid: a number that a gradient of it holds is the height, at its
position, of the curve that the notebooks draw for the disk of that grid point, on any scale. -/
theorem C112_history (ops : List (GridOp ℝ)) (q : GGrad ℝ) (hq : q ∈ (runGrid ops s).gradients.getD [])
    (y x r : ℕ) (hy : y < s.params.gridShape.1) (hx : x < s.params.gridShape.2.1)
    (hr : r < s.params.gridShape.2.2) (w : ℝ) (hw : q.prop.data.at3 y x r = .fin w) :
    ∃ dx dy R I T p : ℝ, HoldsDisk s (y, x, r) dx dy R I T ∧ q.position.num = .fin p ∧
      ∀ z : ℝ, 0 < z → Notebook.ringGradient (.fin (z * p)) (.fin (z * dx)) (.fin (z * dy)) (.fin I) (.fin T) =
        .fin w := by
  obtain ⟨pos, hpos, hall⟩ := C94_history _ _ _ _ _ _ _ _ g hg a b c d m ha hb hc hd hm hext v k s g' h ops q hq
  rcases hall y x r hy hx hr with h1 | ⟨dx, dy, e1, e2, h1⟩
  · rw [hw] at h1; cases h1
  · rcases h1 with ⟨-, h1⟩ | ⟨-, h1⟩ | ⟨R, I, T, p, i3, i4, i5, rfl, ht⟩
    · rw [hw] at h1; cases h1
    · rw [hw] at h1; cases h1
    · obtain ⟨hR, hI0, hI⟩ := disk_ranges _ _ _ _ _ _ _ _ g hg a b c d m ha hb hc hd hm hext v k s g' h y x r hy hx
        hr R I i3 i4
      rw [hw] at ht
      exact ⟨dx, dy, R, I, T, p, ⟨hy, hx, hr, e1, e2, i3, i4, i5⟩, hpos, fun z hz =>
        (C112_grid z dx dy R I T p _ hz hR hI0 hI ht).1 w rfl⟩

/-- **C112** The curve that the notebooks draw for a solution is not below any corrected slope over its
transmission, and its squared distances to them, over the squared errors in a weighted fit, add up to the rms
that is reported with the solution. -/
theorem C112_solution (wt : Bool) (D V U : ℝ) (hD : 0 < D) (hV : 0 < V) (hU0 : 0 ≤ U) (hU : U ≤ 1)
    (qs : List (Measurement ℝ)) (num : PyVal ℝ) (n : ℤ) (rows : List (Shallot.Solution ℝ))
    (hbest : BestSolutions s wt D V U qs num n rows) (row : Shallot.Solution ℝ) (hrow : row ∈ rows) :
    ∃ zs, List.Forall₂ (CurveMisfit wt D V U row) qs zs ∧ row.rms = .fin zs.sum := by
  obtain ⟨ps, -, hrows, -⟩ := hbest
  obtain ⟨p, dx, dy, R, I, T, z, rfl, hdisk, ⟨zs, hzs, rfl⟩, -⟩ : ∃ p, ∃ dx dy R I T z,
      row = ⟨.fin z, .fin R, .fin I, .fin T, .fin dx, .fin dy⟩ ∧ HoldsDisk s p dx dy R I T ∧
      Explains wt D V U qs dx dy R I T z ∧
      DiskOfEclipse (.fin R) (.fin I) (.fin T) (.fin dx) (.fin dy) := by
    obtain ⟨p, -, hp⟩ : ∃ p ∈ ps, ∃ dx dy R I T z,
      row = ⟨.fin z, .fin R, .fin I, .fin T, .fin dx, .fin dy⟩ ∧ HoldsDisk s p dx dy R I T ∧
      Explains wt D V U qs dx dy R I T z ∧
      DiskOfEclipse (.fin R) (.fin I) (.fin T) (.fin dx) (.fin dy) := by
      clear g' h hext hm hg ha hb hc hd
      induction hrows with
      | nil => cases hrow
      | cons h1 _ ih =>
        rcases List.mem_cons.1 hrow with rfl | hr
        · exact ⟨_, List.mem_cons_self, h1⟩
        · obtain ⟨p, hp, h2⟩ := ih hr
          exact ⟨p, List.mem_cons_of_mem _ hp, h2⟩
    exact ⟨p, hp⟩
  obtain ⟨hy, hx, hr, -, -, i3, i4, -⟩ := hdisk
  obtain ⟨hR, hI0, hI⟩ := disk_ranges _ _ _ _ _ _ _ _ g hg a b c d m ha hb hc hd hm hext v k s g' h _ _ _ hy hx
    hr R I i3 i4
  refine ⟨zs, hzs.imp ?_, rfl⟩
  rintro q z' ⟨τ, σ, ρ, e, w, b1, b2, b3, b4, b5, b6, b7⟩
  refine ⟨τ, σ * orbitalFactor V U, ρ, e, w, b1, by rw [b2]; exact corrected_fin V U σ hV hU0 hU, b3, b4, ?_, b6, b7⟩
  intro x' hx'
  rw [b1] at hx'
  rw [(C112_times V D τ hV hD x').1 hx']
  exact (C112_grid (V * D) dx dy R I T (-τ / D) _ (mul_pos hV hD) hR hI0 hI b5).1 w rfl

end

/-- A row of the solutions of a fit that `C112_solution` is about. -/
example : ∃ (s : Shallot ℝ) (row : Shallot.Solution ℝ), ∃ zs,
    List.Forall₂ (CurveMisfit true 1 1 0 row) [probe (1 / 4) 0 1] zs ∧ row.rms = .fin zs.sum := by
  obtain ⟨s, s₁, s₂, s₃, row, s₄, h, -, -, -, -, hbest⟩ := throwAway_solution
  have n1 : IsNumber false (.int 1 : PyVal ℝ) (.fin 1) := Or.inl ⟨1, .int 1, by simp⟩
  have n0 : IsNumber false (.int 0 : PyVal ℝ) (.fin 0) := Or.inl ⟨0, .int 0, by simp⟩
  have n2 : IsNumber false (.int 2 : PyVal ℝ) (.fin 2) := Or.inl ⟨2, .int 2, by simp⟩
  exact ⟨s, row, C112_solution _ _ _ _ _ _ _ _ throwAway throwAway_new 0 1 0 1 2 n0 n1 n0 n1 n2
    (fun _ => ⟨le_rfl, le_rfl⟩) _ _ s _ h true 1 1 0 one_pos one_pos le_rfl zero_le_one _ _ _ _ hbest row (by simp)⟩

/-- **C112** The notebooks and the grid do not agree everywhere: a face-on disk whose edge the star crosses at a
right angle has the gradient 1 in the notebooks and NaN in the grid. -/
theorem C112_vertical : TangentTo 0 0 1 0 0 1 .nan ∧
    Notebook.ringGradient (.fin 1) (.fin 0) (.fin 0) (.fin (0 : ℝ)) (.fin 0) = .fin 1 := by
  obtain ⟨k1, k2⟩ := tilted_deriv 1 (1 * cos (rad 0)) (rad 0) 0
  have hr : rad 0 = 0 := by unfold rad; ring
  have ht : TangentTo 0 0 1 0 0 1 .nan := by
    refine Or.inr ⟨1, 0, _, _, one_pos, ?_, ?_, (k1.const_mul 1).const_add 0, (k2.const_mul 1).const_add 0, ?_, ?_⟩
    · simp [tilted, hr]
    · simp [tilted, hr]
    · intro _; rfl
    · intro hne; exact absurd (by simp [hr]) hne
  refine ⟨ht, ?_⟩
  have := (C112_grid 1 0 0 1 0 0 1 _ one_pos one_pos le_rfl (by norm_num) ht).2 rfl
  simpa using this

end Beyonce
