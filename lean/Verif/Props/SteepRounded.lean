import Verif.Props.ExtendedRounded
import Verif.Props.FitRounded

/-!
# Properties C109, C110 and C111: gradients and fits in floating point, vertical edges included
-/

set_option linter.unusedSectionVars false

namespace Beyonce
open Spec Real

/-- How steep the edge is, by its gradient: that of a vertical edge, which has no tangent, is 1. -/
def Spec.steepness : XF ℝ → ℝ
  | .fin g => g
  | _ => 1

theorem steepness_eq (p dx dy fx fy : ℝ) (hx : 0 < fx) (hy : 0 < fy) (h : dy ≠ 0 ∨ dx = 0) (hp : p ≠ 0 ∨ dy ≠ 0) :
    steepness (Geometry.diskGradient (.fin p) (.fin dx) (.fin dy) (Geometry.shear (.fin dx) (.fin dy)) (.fin fx)
      (.fin fy)) = steep (-(fy ^ 2 * p)) (shearOf dx dy * fy ^ 2 * p - fx ^ 2 * dy) := by
  rw [gradient_eq p dx dy fx fy h]
  have hpos := edge_pos (s := shearOf dx dy) hx hy hp
  by_cases h0 : shearOf dx dy * fy ^ 2 * p - fx ^ 2 * dy = 0
  · rw [if_pos h0]
    have h1 : steep (-(fy ^ 2 * p)) (shearOf dx dy * fy ^ 2 * p - fx ^ 2 * dy) = 1 := by
      rw [h0] at hpos ⊢
      unfold steep
      rw [zero_pow two_ne_zero, add_zero] at hpos ⊢
      rw [sqrt_sq_eq_abs, div_self]
      intro hz
      rw [abs_eq_zero, neg_eq_zero] at hz
      rw [hz, zero_pow two_ne_zero] at hpos
      exact lt_irrefl _ hpos
    exact h1.symm
  · rw [if_neg h0]; rfl

/-- **C109** For every disk and position, also where the edge is vertical or nearly so: the computed gradient is
NaN, and then the edge is vertical up to the rounding error, or it is a number that differs from the true gradient
(1 for a vertical edge) by at most the rounding error. -/
theorem C109_always (L : FloatLib ℝ) (u : ℝ) (hL : Accurate L u) (hu1 : 100 * u ≤ 1) (p dx dy fx fy : ℝ) (hx : 0 < fx)
    (hy : 0 < fy) (h : dy ≠ 0 ∨ dx = 0) (hp : p ≠ 0 ∨ dy ≠ 0) :
    (GeometryRounded.diskGradient L (.fin p) (.fin dx) (.fin dy) (GeometryRounded.shear L (.fin dx) (.fin dy))
        (.fin fx) (.fin fy) = .nan ∧
      √(1 - steepness (Geometry.diskGradient (.fin p) (.fin dx) (.fin dy) (Geometry.shear (.fin dx) (.fin dy))
        (.fin fx) (.fin fy)) ^ 2) ≤ 15 * u * fuzz p dx dy fx fy (shearOf dx dy)) ∨
    ∃ g', GeometryRounded.diskGradient L (.fin p) (.fin dx) (.fin dy)
        (GeometryRounded.shear L (.fin dx) (.fin dy)) (.fin fx) (.fin fy) = .fin g' ∧
      |g' - steepness (Geometry.diskGradient (.fin p) (.fin dx) (.fin dy) (Geometry.shear (.fin dx) (.fin dy))
        (.fin fx) (.fin fy))| ≤ 35 * u * fuzz p dx dy fx fy (shearOf dx dy) := by
  rw [steepness_eq p dx dy fx fy hx hy h hp]
  have hpos := edge_pos (s := shearOf dx dy) hx hy hp
  rcases gradient_near hL hu1 p dx dy fx fy hx hy h hp with ⟨e, hn⟩ | hg
  · refine Or.inl ⟨e, ?_⟩
    rw [steep_flat _ _ (by rw [neg_sq]; exact hpos)]
    unfold steep fuzz edgeLength
    rw [neg_sq, add_comm ((shearOf dx dy * fy ^ 2 * p - fx ^ 2 * dy) ^ 2), ← mul_div_assoc]
    exact div_le_div_of_nonneg_right hn (sqrt_nonneg _)
  · exact Or.inr hg

theorem centre_nan (L : FloatLib ℝ) (u : ℝ) (hL : Accurate L u) (fx fy : ℝ) :
    GeometryRounded.diskGradient L (.fin 0) (.fin 0) (.fin 0) (GeometryRounded.shear L (.fin 0) (.fin 0)) (.fin fx)
      (.fin fy) = .nan := by
  have h0 : L.rnd 0 = 0 := by
    have : |L.rnd 0 - 0| ≤ u * |(0 : ℝ)| := hL.rnd 0
    rw [abs_zero, mul_zero, sub_zero] at this
    exact abs_nonpos_iff.1 this
  have hs : GeometryRounded.shear L (.fin (0 : ℝ)) (.fin 0) = .fin 0 := by
    unfold GeometryRounded.shear
    simp
  rw [hs]
  unfold GeometryRounded.diskGradient
  have hd : XF.eqb (L.add (L.mul (L.add (L.mul (L.sq (.fin 0)) (L.sq (.fin fy))) (L.sq (.fin fx))) (XF.fin (0 : ℝ)).neg)
      (L.mul (L.mul (.fin 0) (L.sq (.fin fy))) (L.sub (.fin 0) (.fin 0)))) (.fin 0) = true := by
    simp only [L.sq_fin, L.mul_fin, L.add_fin, L.sub_fin, XF.neg_fin, neg_zero, mul_zero, sub_zero, add_zero, h0]
    simp
  simp only [hd, Bool.not_true, Bool.false_eq_true, if_false]
  rfl

theorem centre_vertical (fx fy : ℝ) :
    Geometry.diskGradient (.fin 0) (.fin 0) (.fin 0) (Geometry.shear (.fin 0) (.fin 0)) (.fin fx) (.fin fy) =
      .nan := by
  rw [gradient_eq _ _ _ _ _ (Or.inr rfl), if_pos (by ring)]

theorem fuzz_nonneg (p dx dy fx fy s : ℝ) : 0 ≤ fuzz p dx dy fx fy s := by
  unfold fuzz terms edgeLength; positivity

/-- **C109** The same for a measurement: the gradient at the position that is computed, compared to the true one at
the true position.  `p'` is the position that the code computes. -/
theorem C109_measured_always (L : FloatLib ℝ) (u : ℝ) (hL : Accurate L u) (hu1 : 1000 * u ≤ 1)
    (time duration dx dy fx fy : ℝ) (hx : 0 < fx) (hy : 0 < fy) (h : dy ≠ 0 ∨ dx = 0) (hd : 0 < duration) :
    ∃ p', GeometryRounded.position L (.fin time) (.fin duration) = .fin p' ∧
      ((GeometryRounded.diskGradient L (.fin p') (.fin dx) (.fin dy) (GeometryRounded.shear L (.fin dx) (.fin dy))
          (.fin fx) (.fin fy) = .nan ∧
        √(1 - steepness (Geometry.diskGradient (.fin (-time / duration)) (.fin dx) (.fin dy)
          (Geometry.shear (.fin dx) (.fin dy)) (.fin fx) (.fin fy)) ^ 2) ≤
          18 * u * fuzz p' dx dy fx fy (shearOf dx dy)) ∨
      ∃ g', GeometryRounded.diskGradient L (.fin p') (.fin dx) (.fin dy)
            (GeometryRounded.shear L (.fin dx) (.fin dy)) (.fin fx) (.fin fy) = .fin g' ∧
          |g' - steepness (Geometry.diskGradient (.fin (-time / duration)) (.fin dx) (.fin dy)
            (Geometry.shear (.fin dx) (.fin dy)) (.fin fx) (.fin fy))| ≤
            38 * u * fuzz p' dx dy fx fy (shearOf dx dy)) := by
  have hu := hL.nonneg
  have hpos : GeometryRounded.position L (.fin time) (.fin duration) = .fin (L.rnd (-time / duration)) := by
    unfold GeometryRounded.position
    rw [XF.neg_fin, L.div_fin _ _ hd.ne']
  refine ⟨_, hpos, ?_⟩
  have hpq : RelNear u (L.rnd (-time / duration)) (-time / duration) := hL.rnd _
  clear hpos
  generalize L.rnd (-time / duration) = q at *
  generalize -time / duration = p at *
  by_cases hp : p ≠ 0 ∨ dy ≠ 0
  swap
  · push Not at hp
    obtain ⟨rfl, rfl⟩ := hp
    have hdx : dx = 0 := h.resolve_left (fun hh => hh rfl)
    subst hdx
    have hq0 : q = 0 := by
      have h1 : |q - 0| ≤ u * |(0 : ℝ)| := hpq
      rw [abs_zero, mul_zero, sub_zero] at h1
      exact abs_nonpos_iff.1 h1
    subst hq0
    refine Or.inl ⟨centre_nan L u hL fx fy, ?_⟩
    rw [centre_vertical]
    have : √(1 - steepness .nan ^ 2) = 0 := by
      show √(1 - (1 : ℝ) ^ 2) = 0
      norm_num
    rw [this]
    have := fuzz_nonneg 0 0 0 fx fy (shearOf 0 0)
    positivity
  have hq : q ≠ 0 ∨ dy ≠ 0 := by
    rcases hp with hp | hp
    · left
      rintro rfl
      have h1 : |0 - p| ≤ u * |p| := hpq
      rw [zero_sub, abs_neg] at h1
      have := abs_pos.2 hp
      nlinarith
    · exact Or.inr hp
  rw [steepness_eq p dx dy fx fy hx hy h hp]
  have hP := edge_pos (s := shearOf dx dy) hx hy hp
  have hQ := edge_pos (s := shearOf dx dy) hx hy hq
  rw [← neg_sq (fy ^ 2 * _)] at hP hQ
  have hmove := moved_near (fx := fx) (fy := fy) hu (by linarith) (shearOf_mul dx dy h) hpq
  have hf : fuzz q dx dy fx fy (shearOf dx dy) = terms q dx dy fx fy (shearOf dx dy) /
      √((-(fy ^ 2 * q)) ^ 2 + (shearOf dx dy * fy ^ 2 * q - fx ^ 2 * dy) ^ 2) := by
    unfold fuzz edgeLength; rw [neg_sq]
  have hfz : 0 ≤ u * fuzz q dx dy fx fy (shearOf dx dy) := mul_nonneg hu (fuzz_nonneg ..)
  have key := C109_always L u hL (by linarith) q dx dy fx fy hx hy h hq
  rw [steepness_eq q dx dy fx fy hx hy h hq] at key
  rcases key with ⟨k1, k2⟩ | ⟨g', k1, k2⟩
  · refine Or.inl ⟨k1, ?_⟩
    rw [steep_flat _ _ hQ] at k2
    rw [steep_flat _ _ hP]
    have hswap := hmove
    rw [add_comm] at hswap
    have hmove3 := steep_near hswap (by rw [add_comm]; exact hQ) (by rw [add_comm]; exact hP)
    rw [add_comm _ ((-(fy ^ 2 * q)) ^ 2), show 2 * (1.02 * u * terms q dx dy fx fy (shearOf dx dy)) /
      √((-(fy ^ 2 * q)) ^ 2 + (shearOf dx dy * fy ^ 2 * q - fx ^ 2 * dy) ^ 2) =
      2.04 * u * fuzz q dx dy fx fy (shearOf dx dy) by rw [hf]; ring] at hmove3
    have := (abs_le.1 hmove3).2
    linarith
  · refine Or.inr ⟨g', k1, ?_⟩
    have hmove2 := steep_near hmove hQ hP
    rw [show 2 * (1.02 * u * terms q dx dy fx fy (shearOf dx dy)) /
      √((-(fy ^ 2 * q)) ^ 2 + (shearOf dx dy * fy ^ 2 * q - fx ^ 2 * dy) ^ 2) =
      2.04 * u * fuzz q dx dy fx fy (shearOf dx dy) by rw [hf]; ring] at hmove2
    have := abs_sub_le g' (steep (-(fy ^ 2 * q)) (shearOf dx dy * fy ^ 2 * q - fx ^ 2 * dy))
      (steep (-(fy ^ 2 * p)) (shearOf dx dy * fy ^ 2 * p - fx ^ 2 * dy))
    rw [abs_sub_comm (steep _ _)] at this
    linarith

theorem orbitalFactor_nonneg {v l : ℝ} (l0 : 0 ≤ l) (l1 : l ≤ 1) (v0 : 0 < v) : 0 ≤ orbitalFactor v l := by
  unfold orbitalFactor
  have h1 : 0 ≤ 6 - 2 * l := by linarith
  have h2 : 0 ≤ 12 - 12 * l + 3 * π * l := by
    have : 0 ≤ 3 * π * l := by positivity
    linarith
  have := pi_pos
  positivity

/-- **C109** Whatever the disk and the measurement, unless the steepness of the edge (1 for a vertical edge) and that
asked for differ by less than the rounding error: the mask is decided in floating point as it should be, or a disk
is masked whose edge is vertical up to the rounding error. -/
theorem C109_mask_always (L : FloatLib ℝ) (u : ℝ) (hL : Accurate L u) (hu1 : 1000 * u ≤ 1)
    (time slope t duration v l dx dy fx fy g : ℝ) (hx : 0 < fx) (hy : 0 < fy) (h : dy ≠ 0 ∨ dx = 0)
    (hd : 0 < duration) (hslope : 0 ≤ slope) (l0 : 0 ≤ l) (l1 : l ≤ 1) (v0 : 0 < v) (t0 : 0 < t)
    (hg : steepness (Geometry.diskGradient (.fin (-time / duration)) (.fin dx) (.fin dy)
      (Geometry.shear (.fin dx) (.fin dy)) (.fin fx) (.fin fy)) = g) :
    ∃ p', GeometryRounded.position L (.fin time) (.fin duration) = .fin p' ∧
      (u * (38 * fuzz p' dx dy fx fy (shearOf dx dy) + 51 * (slope * orbitalFactor v l / t)) <
          |g - slope * orbitalFactor v l / t| →
        GeometryRounded.marked L (.fin time) (.fin slope) (.fin t) (.fin duration) (.fin v) (.fin l) (.fin dx)
          (.fin dy) (.fin fx) (.fin fy) = decide (g < slope * orbitalFactor v l / t) ∨
        (GeometryRounded.marked L (.fin time) (.fin slope) (.fin t) (.fin duration) (.fin v) (.fin l) (.fin dx)
          (.fin dy) (.fin fx) (.fin fy) = true ∧ √(1 - g ^ 2) ≤ 18 * u * fuzz p' dx dy fx fy (shearOf dx dy))) := by
  obtain ⟨q, hpos, hgrad⟩ := C109_measured_always L u hL hu1 time duration dx dy fx fy hx hy h hd
  rw [hg] at hgrad
  refine ⟨q, hpos, fun hm => ?_⟩
  unfold GeometryRounded.marked
  rw [hpos]
  obtain ⟨w, ew, nw⟩ := C109_scaled L u hL hu1 slope l v t l0 l1 v0 t0
  rw [XF.abs_fin, abs_of_nonneg hslope, ew]
  rcases hgrad with ⟨k1, k2⟩ | ⟨g', e, n2⟩
  · refine Or.inr ⟨?_, k2⟩
    rw [k1]
    simp [GGrad.maskAt]
  left
  have nw' : |w - slope * orbitalFactor v l / t| ≤ 51 * u * |slope * orbitalFactor v l / t| := nw
  have hT : 0 ≤ slope * orbitalFactor v l / t := by
    have := orbitalFactor_nonneg l0 l1 v0
    positivity
  rw [abs_of_nonneg hT] at nw'
  generalize slope * orbitalFactor v l / t = T at *
  rw [e]
  unfold GGrad.maskAt
  rw [XF.lt_fin, XF.isNan_fin, Bool.or_false]
  obtain ⟨a1, a2⟩ := abs_le.1 n2
  obtain ⟨b1, b2⟩ := abs_le.1 nw'
  refine decide_eq_decide.2 ⟨fun hlt => ?_, fun hlt => ?_⟩
  · by_contra hge
    rw [not_lt] at hge
    rw [abs_of_nonneg (by linarith)] at hm
    linarith
  · rw [abs_of_neg (by linarith)] at hm
    linarith

theorem fit_nan (L : FloatLib ℝ) (w : Bool) (ps : List (FitPart ℝ)) (p : FitPart ℝ) (hp : p ∈ ps)
    (hn : p.gradient = .nan) : FitRounded.fitAt L w ps = .nan := by
  have stay : ∀ l : List (FitPart ℝ), l.foldl (fun data p => L.add data (FitRounded.term L w p)) .nan = .nan := by
    intro l
    induction l with
    | nil => rfl
    | cons a l ih => rw [List.foldl_cons]; exact ih
  have gen : ∀ (l : List (FitPart ℝ)) (z : XF ℝ), p ∈ l →
      l.foldl (fun data p => L.add data (FitRounded.term L w p)) z = .nan := by
    intro l
    induction l with
    | nil => intro z h; cases h
    | cons a l ih =>
      intro z h
      rw [List.foldl_cons]
      rcases List.mem_cons.1 h with rfl | h
      · have ht : FitRounded.term L w p = .nan := by
          unfold FitRounded.term
          rw [hn]
          generalize FitRounded.weight L w p.error = x
          cases x <;> rfl
        rw [ht]
        have : L.add z .nan = .nan := by cases z <;> rfl
        rw [this]
        exact stay l
      · exact ih _ h
  exact gen ps _ hp

/-- **C110** Whatever the disk and the measurements: the fit that is computed is NaN, and then the edge of the disk is
vertical up to the rounding error at one of the measurements, or it is the fit of the disk, up to the roundings of
the sum and the errors of gradients and scaled measurements. -/
theorem C110_measured_always (L : FloatLib ℝ) (u : ℝ) (hL : Accurate L u) (hu1 : 1000 * u ≤ 1) (w : Bool)
    (duration v l dx dy fx fy : ℝ) (hx : 0 < fx) (hy : 0 < fy) (h : dy ≠ 0 ∨ dx = 0) (hd : 0 < duration)
    (l0 : 0 ≤ l) (l1 : l ≤ 1) (v0 : 0 < v) (qs : List Observed)
    (hq : ∀ q ∈ qs, 0 ≤ q.slope ∧ 0 < q.transmission ∧ (w = true → q.error ≠ 0) ∧
      steepness (Geometry.diskGradient (.fin (-q.time / duration)) (.fin dx) (.fin dy)
        (Geometry.shear (.fin dx) (.fin dy)) (.fin fx) (.fin fy)) = q.gradient) :
    (FitRounded.fitAt L w (qs.map (Observed.part L duration v l dx dy fx fy)) = .nan ∧
      ∃ q ∈ qs, √(1 - q.gradient ^ 2) ≤ 18 * u * fuzz (L.rnd (-q.time / duration)) dx dy fx fy (shearOf dx dy)) ∨
    ∃ z, FitRounded.fitAt L w (qs.map (Observed.part L duration v l dx dy fx fy)) = .fin z ∧
      √(z * (1 - u) ^ (qs.length + 5)) ≤ √(chi2 w (qs.map fun q => (q.gradient, q.asked v l, q.error))) +
        √(chi2 w (qs.map fun q => (u * (38 * fuzz (L.rnd (-q.time / duration)) dx dy fx fy (shearOf dx dy) +
          51 * q.asked v l), 0, q.error))) ∧
      √(chi2 w (qs.map fun q => (q.gradient, q.asked v l, q.error))) ≤ √(z / (1 - u) ^ (qs.length + 5)) +
        √(chi2 w (qs.map fun q => (u * (38 * fuzz (L.rnd (-q.time / duration)) dx dy fx fy (shearOf dx dy) +
          51 * q.asked v l), 0, q.error))) := by
  have hu := hL.nonneg
  have hposn : ∀ q : Observed, ∀ p', GeometryRounded.position L (.fin q.time) (.fin duration) = .fin p' →
      p' = L.rnd (-q.time / duration) := by
    intro q p' ep
    unfold GeometryRounded.position at ep
    rw [XF.neg_fin, L.div_fin _ _ hd.ne'] at ep
    injection ep with ep
    exact ep.symm
  by_cases hn : ∃ q ∈ qs, (Observed.part L duration v l dx dy fx fy q).gradient = .nan
  · obtain ⟨q, hqm, e⟩ := hn
    refine Or.inl ⟨fit_nan L w _ _ (List.mem_map.2 ⟨q, hqm, rfl⟩) e, q, hqm, ?_⟩
    obtain ⟨-, -, -, h4⟩ := hq q hqm
    obtain ⟨p', ep, hg⟩ := C109_measured_always L u hL hu1 q.time duration dx dy fx fy hx hy h hd
    have hp' := hposn q p' ep
    rw [h4, hp'] at hg
    rcases hg with ⟨-, k⟩ | ⟨g', k, -⟩
    · exact k
    · unfold Observed.part FitRounded.part at e
      simp only at e
      rw [ep, hp', k] at e
      cases e
  · push Not at hn
    refine Or.inr (fit_of_parts L u hL hu1 w duration v l dx dy fx fy qs (fun q hqm => (hq q hqm).2.2.1) ?_)
    intro q hqm
    obtain ⟨h1, h2, -, h4⟩ := hq q hqm
    obtain ⟨p', ep, hg⟩ := C109_measured_always L u hL hu1 q.time duration dx dy fx fy hx hy h hd
    have hp' := hposn q p' ep
    rw [h4] at hg
    rw [← hp']
    obtain ⟨g', eg, ng⟩ := hg.resolve_left (fun hh => hn q hqm (by
      unfold Observed.part FitRounded.part
      simp only
      rw [ep]
      exact hh.1))
    obtain ⟨t', et, nt⟩ := C109_scaled L u hL hu1 q.slope l v q.transmission l0 l1 v0 h2
    refine ⟨g', t', ?_, ?_⟩
    · unfold Observed.part FitRounded.part asPart
      rw [XF.abs_fin, abs_of_nonneg h1, et, ep, eg]
    · have hT : 0 ≤ q.asked v l := by
        unfold Observed.asked
        have := orbitalFactor_nonneg l0 l1 v0
        positivity
      have nt' : |t' - q.asked v l| ≤ 51 * u * |q.asked v l| := nt
      rw [abs_of_nonneg hT] at nt'
      rw [show g' - t' - (q.gradient - q.asked v l) = (g' - q.gradient) - (t' - q.asked v l) by ring]
      refine (abs_sub _ _).trans ?_
      linarith

/-- **C111** The same with a displaced centre, as on an extended grid. -/
theorem C111_displaced_always (L : FloatLib ℝ) (u : ℝ) (hL : Accurate L u) (hu1 : 100 * u ≤ 1)
    (e p dx dy dx' dy' fx fy : ℝ) (hx : 0 < fx) (hy : 0 < fy) (he : e < |dy|) (h1 : |dx' - dx| ≤ e)
    (h2 : |dy' - dy| ≤ e) :
    (GeometryRounded.diskGradient L (.fin p) (.fin dx') (.fin dy') (GeometryRounded.shear L (.fin dx') (.fin dy'))
        (.fin fx) (.fin fy) = .nan ∧
      √(1 - steepness (Geometry.diskGradient (.fin p) (.fin dx) (.fin dy) (Geometry.shear (.fin dx) (.fin dy))
        (.fin fx) (.fin fy)) ^ 2) ≤ 15 * u * fuzz p dx' dy' fx fy (shearOf dx' dy') + drift e p dx dy fx fy) ∨
    ∃ g', GeometryRounded.diskGradient L (.fin p) (.fin dx') (.fin dy')
        (GeometryRounded.shear L (.fin dx') (.fin dy')) (.fin fx) (.fin fy) = .fin g' ∧
      |g' - steepness (Geometry.diskGradient (.fin p) (.fin dx) (.fin dy) (Geometry.shear (.fin dx) (.fin dy))
        (.fin fx) (.fin fy))| ≤ 35 * u * fuzz p dx' dy' fx fy (shearOf dx' dy') + drift e p dx dy fx fy := by
  have he0 : 0 ≤ e := (abs_nonneg _).trans h1
  have hdy : dy ≠ 0 := abs_pos.1 (he0.trans_lt he)
  have hdy' : dy' ≠ 0 := by
    rintro rfl
    rw [zero_sub, abs_neg] at h2
    linarith
  have hnear := displaced_near (fx := fx) (fy := fy) (p := p) he h1 h2
  have hP := edge_pos (s := shearOf dx dy) hx hy (Or.inr hdy : p ≠ 0 ∨ dy ≠ 0)
  have hQ := edge_pos (s := shearOf dx' dy') hx hy (Or.inr hdy' : p ≠ 0 ∨ dy' ≠ 0)
  rw [← neg_sq (fy ^ 2 * p)] at hP hQ
  have hdrift : 2 * (e * (fx ^ 2 + fy ^ 2 * |p| * (|dx| + |dy|) / (|dy| * (|dy| - e)))) /
      √((-(fy ^ 2 * p)) ^ 2 + (shearOf dx dy * fy ^ 2 * p - fx ^ 2 * dy) ^ 2) = drift e p dx dy fx fy := by
    unfold drift edgeLength; rw [neg_sq]
  have key := C109_always L u hL hu1 p dx' dy' fx fy hx hy (Or.inl hdy') (Or.inr hdy')
  rw [steepness_eq p dx' dy' fx fy hx hy (Or.inl hdy') (Or.inr hdy')] at key
  rw [steepness_eq p dx dy fx fy hx hy (Or.inl hdy) (Or.inr hdy)]
  rcases key with ⟨k1, k2⟩ | ⟨g', k1, k2⟩
  · refine Or.inl ⟨k1, ?_⟩
    rw [steep_flat _ _ hQ] at k2
    rw [steep_flat _ _ hP]
    have hswap := hnear
    rw [add_comm] at hswap
    have hmove := steep_near hswap (by rw [add_comm]; exact hP) (by rw [add_comm]; exact hQ)
    rw [add_comm _ ((-(fy ^ 2 * p)) ^ 2), hdrift] at hmove
    have := (abs_le.1 hmove).1
    linarith
  · refine Or.inr ⟨g', k1, ?_⟩
    have hmove := steep_near hnear hP hQ
    rw [hdrift] at hmove
    have := abs_sub_le g' (steep (-(fy ^ 2 * p)) (shearOf dx' dy' * fy ^ 2 * p - fx ^ 2 * dy'))
      (steep (-(fy ^ 2 * p)) (shearOf dx dy * fy ^ 2 * p - fx ^ 2 * dy))
    linarith

/-- **C111** On an extended grid, off the horizontal axis, for every scale factor and position: the gradient that is
computed with the scale factors of the grid point that is mirrored is NaN, and then the edge of the mirrored disk is
vertical up to the errors, or it is that of the mirrored disk (1 for a vertical edge) up to the errors.  `right` and
`up` tell the quadrant. -/
theorem C111_extended_always (L : FloatLib ℝ) (u : ℝ) (hL : Accurate L u) (hu1 : 100 * u ≤ 1)
    (hF : FloatRounding L.rnd u) (minX maxX numX minY maxY numY maxRf numRf : PyVal ℝ)
    (b d : ℝ) (nx ny : ℕ) (g : GridParams ℝ)
    (ha : IsNumber false minX (.fin 0)) (hb : IsNumber false maxX (.fin b)) (hnx : Count numX nx)
    (hc : IsNumber false minY (.fin 0)) (hd : IsNumber false maxY (.fin d)) (hny : Count numY ny)
    (hx : 2 ≤ nx) (hy : 2 ≤ ny) (hux : 8 * u * nx ≤ 1) (huy : 8 * u * ny ≤ 1)
    (hg : GridRounded.new L.rnd minX maxX numX minY maxY numY maxRf numRf = .ok g) :
    ∃ g', GridRounded.extendGrid L.rnd g = (.ok (), g') ∧
      ∀ j < nx, ∀ i < ny, ∃ x y : ℝ, g.dx.data[j]? = some (.fin x) ∧ g.dy.data[i]? = some (.fin y) ∧
        ∀ right up : Bool, ∃ x' y' : ℝ,
          g'.dx.data[if right then nx - 1 + j else nx - 1 - j]? = some (.fin x') ∧
          g'.dy.data[if up then ny - 1 + i else ny - 1 - i]? = some (.fin y') ∧
          ∀ p fx fy : ℝ, 0 < fx → 0 < fy → 14 * u * max (L.rnd b) (L.rnd d) < |y| →
            (GeometryRounded.diskGradient L (.fin p) (.fin x') (.fin y')
                (GeometryRounded.shear L (.fin x') (.fin y')) (.fin fx) (.fin fy) = .nan ∧
              √(1 - steepness (Geometry.diskGradient (.fin (if right then p else -p)) (.fin x) (.fin y)
                (Geometry.shear (.fin x) (.fin y)) (.fin fx) (.fin fy)) ^ 2) ≤
                15 * u * fuzz p x' y' fx fy (shearOf x' y') +
                  drift (14 * u * max (L.rnd b) (L.rnd d)) (if right then p else -p) x y fx fy) ∨
            ∃ w', GeometryRounded.diskGradient L (.fin p) (.fin x') (.fin y')
                (GeometryRounded.shear L (.fin x') (.fin y')) (.fin fx) (.fin fy) = .fin w' ∧
              |w' - steepness (Geometry.diskGradient (.fin (if right then p else -p)) (.fin x) (.fin y)
                (Geometry.shear (.fin x) (.fin y)) (.fin fx) (.fin fy))| ≤
                35 * u * fuzz p x' y' fx fy (shearOf x' y') +
                  drift (14 * u * max (L.rnd b) (L.rnd d)) (if right then p else -p) x y fx fy := by
  have hu := hL.nonneg
  obtain ⟨g', e1, m1, m2, -⟩ := C93_extend_partial hF hu minX maxX numX minY maxY numY maxRf numRf b d nx ny g ha hb
    hnx hc hd hny hx hy hux huy hg
  refine ⟨g', e1, fun j hj i hi => ?_⟩
  obtain ⟨x, xr, xl, hx0, hxr, hxl, nr, nl⟩ := m1.values j hj
  obtain ⟨y, yu, yd, hy0, hyu, hyd, nu, nd⟩ := m2.values i hi
  refine ⟨x, y, hx0, hy0, fun right up => ⟨if right then xr else xl, if up then yu else yd, ?_, ?_, ?_⟩⟩
  · cases right
    · exact hxl
    · exact hxr
  · cases up
    · exact hyd
    · exact hyu
  intro p fx fy hfx hfy he
  have hb14 : 14 * u * L.rnd b ≤ 14 * u * max (L.rnd b) (L.rnd d) :=
    mul_le_mul_of_nonneg_left (le_max_left _ _) (by linarith)
  have hd14 : 14 * u * L.rnd d ≤ 14 * u * max (L.rnd b) (L.rnd d) :=
    mul_le_mul_of_nonneg_left (le_max_right _ _) (by linarith)
  generalize 14 * u * max (L.rnd b) (L.rnd d) = E at *
  have hdr : ∀ σ τ : ℝ, (σ = 1 ∨ σ = -1) → (τ = 1 ∨ τ = -1) →
      drift E p (σ * x) (τ * y) fx fy = drift E (σ * p) x y fx fy := by
    intro σ τ hσ hτ
    unfold drift edgeLength
    rw [shearOf_mirror σ τ x y hσ hτ, show σ * τ * shearOf x y * fy ^ 2 * p - fx ^ 2 * (τ * y) =
      τ * (shearOf x y * fy ^ 2 * (σ * p) - fx ^ 2 * y) by ring]
    generalize shearOf x y * fy ^ 2 * (σ * p) - fx ^ 2 * y = D
    rcases hσ with rfl | rfl <;> rcases hτ with rfl | rfl <;> simp
  have key : ∀ σ τ x' y' : ℝ, (σ = 1 ∨ σ = -1) → (τ = 1 ∨ τ = -1) → |x' - σ * x| ≤ E → |y' - τ * y| ≤ E →
      (GeometryRounded.diskGradient L (.fin p) (.fin x') (.fin y')
          (GeometryRounded.shear L (.fin x') (.fin y')) (.fin fx) (.fin fy) = .nan ∧
        √(1 - steepness (Geometry.diskGradient (.fin (σ * p)) (.fin x) (.fin y) (Geometry.shear (.fin x) (.fin y))
          (.fin fx) (.fin fy)) ^ 2) ≤
          15 * u * fuzz p x' y' fx fy (shearOf x' y') + drift E (σ * p) x y fx fy) ∨
      ∃ w', GeometryRounded.diskGradient L (.fin p) (.fin x') (.fin y')
          (GeometryRounded.shear L (.fin x') (.fin y')) (.fin fx) (.fin fy) = .fin w' ∧
        |w' - steepness (Geometry.diskGradient (.fin (σ * p)) (.fin x) (.fin y) (Geometry.shear (.fin x) (.fin y))
          (.fin fx) (.fin fy))| ≤ 35 * u * fuzz p x' y' fx fy (shearOf x' y') + drift E (σ * p) x y fx fy := by
    intro σ τ x' y' hσ hτ k1 k2
    have hy0 : y ≠ 0 := by
      rintro rfl
      have := (abs_nonneg _).trans k1
      rw [abs_zero] at he
      linarith
    rw [← hdr σ τ hσ hτ, ← mirror_gradient σ τ p x y fx fy hσ hτ (Or.inl hy0)]
    refine C111_displaced_always L u hL hu1 E p (σ * x) (τ * y) x' y' fx fy hfx hfy ?_ k1 k2
    rwa [abs_mul, show |τ| = 1 by rcases hτ with rfl | rfl <;> simp, one_mul]
  cases right <;> cases up
  · have := key (-1) (-1) xl yd (Or.inr rfl) (Or.inr rfl) (by rw [neg_one_mul, sub_neg_eq_add]; linarith)
      (by rw [neg_one_mul, sub_neg_eq_add]; linarith)
    rw [neg_one_mul] at this
    exact this
  · have := key (-1) 1 xl yu (Or.inr rfl) (Or.inl rfl) (by rw [neg_one_mul, sub_neg_eq_add]; linarith)
      (by rw [one_mul]; linarith)
    rw [neg_one_mul] at this
    exact this
  · have := key 1 (-1) xr yd (Or.inl rfl) (Or.inr rfl) (by rw [one_mul]; linarith)
      (by rw [neg_one_mul, sub_neg_eq_add]; linarith)
    rw [one_mul] at this
    exact this
  · have := key 1 1 xr yu (Or.inl rfl) (Or.inl rfl) (by rw [one_mul]; linarith) (by rw [one_mul]; linarith)
    rw [one_mul] at this
    exact this

/-- A circle whose edge is vertical where the star is: the hypotheses of `C109_always` are met in binary64. -/
example : steepness (Geometry.diskGradient (.fin (-1)) (.fin 1) (.fin 1) (Geometry.shear (.fin 1) (.fin 1)) (.fin 1)
      (.fin 1)) = 1 ∧
    (GeometryRounded.diskGradient .double (.fin (-1)) (.fin 1) (.fin 1)
        (GeometryRounded.shear .double (.fin 1) (.fin 1)) (.fin 1) (.fin 1) = .nan ∨
      ∃ g', GeometryRounded.diskGradient .double (.fin (-1)) (.fin 1) (.fin 1)
        (GeometryRounded.shear .double (.fin 1) (.fin 1)) (.fin 1) (.fin 1) = .fin g' ∧
        |g' - 1| ≤ 35 * (1 / 2 ^ 53) * fuzz (-1) 1 1 1 1 (shearOf 1 1)) := by
  have h1 : steepness (Geometry.diskGradient (.fin (-1)) (.fin 1) (.fin 1) (Geometry.shear (.fin 1) (.fin 1)) (.fin 1)
      (.fin 1)) = 1 := by
    rw [steepness_eq _ _ _ _ _ one_pos one_pos (Or.inl one_ne_zero) (Or.inr one_ne_zero)]
    unfold steep shearOf
    norm_num
  refine ⟨h1, ?_⟩
  have := C109_always .double (1 / 2 ^ 53) double_accurate (by norm_num) (-1) 1 1 1 1 one_pos one_pos
    (Or.inl one_ne_zero) (Or.inr one_ne_zero)
  rw [h1] at this
  exact this.imp And.left id

/-- The same circle, measured there: the hypotheses of `C110_measured_always` are met. -/
example : ∀ q ∈ [(⟨1, 1, 1, 1, 1⟩ : Observed)], 0 ≤ q.slope ∧ 0 < q.transmission ∧ (true = true → q.error ≠ 0) ∧
    steepness (Geometry.diskGradient (.fin (-q.time / 1)) (.fin 1) (.fin 1) (Geometry.shear (.fin 1) (.fin 1)) (.fin 1)
      (.fin 1)) = q.gradient := by
  intro q hq
  obtain rfl := List.mem_singleton.1 hq
  refine ⟨by norm_num, by norm_num, fun _ => by norm_num, ?_⟩
  rw [steepness_eq _ _ _ _ _ one_pos one_pos (Or.inl one_ne_zero) (Or.inr one_ne_zero)]
  unfold steep shearOf
  norm_num

end Beyonce
