import Verif.Props.GradientRounded
import Verif.Props.GridRounded

/-!
# Property C111: gradients on an extended grid in floating point

`extend_grid` divides the extended vectors anew (C93), and `_extend_grid` (Shallot.py L1289-1313) computes the
shear from them, while radius, inclination, tilt and scale factors are those of the grid before.  Gradients are
computed from both.
-/

set_option linter.unusedSectionVars false

namespace Beyonce
open Spec Real

/-! ## Rounding of real numbers to 53 digits -/

theorem nearest_idem {x : ℝ} (hx : 0 < x) : nearest (nearest x) = nearest x := by
  obtain ⟨h1, h2⟩ := nearest_between hx
  have hp := nearest_pos hx
  rcases h2.lt_or_eq with h2 | h2
  · have hl : Int.log 2 (nearest x) = Int.log 2 x := by
      refine le_antisymm ?_ ?_
      · have : (2 : ℝ) ^ Int.log 2 (nearest x) < 2 ^ (Int.log 2 x + 1) := (log_le _ hp).trans_lt h2
        have := (zpow_lt_zpow_iff_right₀ (by norm_num)).1 this
        omega
      · have : (2 : ℝ) ^ Int.log 2 x < 2 ^ (Int.log 2 (nearest x) + 1) := h1.trans_lt (lt_log _)
        have := (zpow_lt_zpow_iff_right₀ (by norm_num)).1 this
        omega
    have hu : ulp (nearest x) = ulp x := by unfold ulp; rw [hl]
    have e : nearest x / ulp x = ((round (x / ulp x) : ℤ) : ℝ) := by
      unfold nearest
      rw [mul_div_assoc, div_self (ulp_pos x).ne', mul_one]
    have h : nearest (nearest x) = ((round (nearest x / ulp (nearest x)) : ℤ) : ℝ) * ulp (nearest x) := rfl
    rw [h, hu, e, round_intCast]
    rfl
  · generalize nearest x = y at *
    subst h2
    have hl : Int.log 2 ((2 : ℝ) ^ (Int.log 2 x + 1)) = Int.log 2 x + 1 := by
      have := Int.log_zpow (R := ℝ) (b := 2) (by norm_num) (Int.log 2 x + 1)
      exact_mod_cast this
    have h := ulp_lower ((2 : ℝ) ^ (Int.log 2 x + 1))
    rw [hl] at h
    unfold nearest
    have e : (2 : ℝ) ^ (Int.log 2 x + 1) / ulp ((2 : ℝ) ^ (Int.log 2 x + 1)) = ((2 ^ 52 : ℤ) : ℝ) := by
      rw [div_eq_iff (ulp_pos _).ne']
      exact h
    rw [e, round_intCast]
    exact h.symm

theorem double_neg (x : ℝ) : double (-x) = -double x := by
  unfold double
  rcases lt_trichotomy x 0 with h | h | h
  · rw [if_pos h, if_neg (by linarith), if_neg (by linarith), neg_neg]
  · simp [h]
  · rw [if_pos (by linarith), if_neg (by linarith), if_neg h.ne', neg_neg]

theorem double_idem (x : ℝ) : double (double x) = double x := by
  have pos : ∀ y : ℝ, 0 < y → double (double y) = double y := by
    intro y hy
    have e : double y = nearest y := by
      unfold double
      rw [if_neg (by linarith), if_neg hy.ne']
    have hp := nearest_pos hy
    rw [e]
    unfold double
    rw [if_neg (by linarith), if_neg hp.ne', nearest_idem hy]
  rcases lt_trichotomy x 0 with h | h | h
  · have := pos (-x) (by linarith)
    rw [double_neg, double_neg] at this
    linarith
  · rw [h]
    simp [double]
  · exact pos x h

theorem double_rounding : FloatRounding double (1 / 2 ^ 53) :=
  ⟨double_rounds, double_mono, double_idem, double_neg, double_one⟩

/-! ## Mirror images and displaced disks -/

theorem shearOf_mirror (σ τ dx dy : ℝ) (hσ : σ = 1 ∨ σ = -1) (hτ : τ = 1 ∨ τ = -1) :
    shearOf (σ * dx) (τ * dy) = σ * τ * shearOf dx dy := by
  unfold shearOf
  by_cases h : dy = 0
  · simp [h]
  · rcases hσ with rfl | rfl <;> rcases hτ with rfl | rfl <;> simp [h] <;> field_simp

/-- The gradient of the mirror image of a disk is that of the disk at the mirrored position. -/
theorem mirror_gradient (σ τ p dx dy fx fy : ℝ) (hσ : σ = 1 ∨ σ = -1) (hτ : τ = 1 ∨ τ = -1)
    (h : dy ≠ 0 ∨ dx = 0) :
    Geometry.diskGradient (.fin p) (.fin (σ * dx)) (.fin (τ * dy)) (Geometry.shear (.fin (σ * dx)) (.fin (τ * dy)))
        (.fin fx) (.fin fy) =
      Geometry.diskGradient (.fin (σ * p)) (.fin dx) (.fin dy) (Geometry.shear (.fin dx) (.fin dy)) (.fin fx)
        (.fin fy) := by
  have h' : τ * dy ≠ 0 ∨ σ * dx = 0 := by
    rcases h with h | h
    · left
      rcases hτ with rfl | rfl <;> simpa using h
    · right
      rw [h, mul_zero]
  rw [gradient_eq _ _ _ _ _ h', gradient_eq _ _ _ _ _ h, shearOf_mirror σ τ dx dy hσ hτ]
  have e : σ * τ * shearOf dx dy * fy ^ 2 * p - fx ^ 2 * (τ * dy) =
      τ * (shearOf dx dy * fy ^ 2 * (σ * p) - fx ^ 2 * dy) := by ring
  rw [e]
  generalize shearOf dx dy * fy ^ 2 * (σ * p) - fx ^ 2 * dy = D
  unfold steep
  rcases hσ with rfl | rfl <;> rcases hτ with rfl | rfl <;> simp

/-- How much the direction of the edge of a disk may change if its centre is displaced by `e`. -/
noncomputable def Spec.drift (e p dx dy fx fy : ℝ) : ℝ :=
  2 * (e * (fx ^ 2 + fy ^ 2 * |p| * (|dx| + |dy|) / (|dy| * (|dy| - e)))) /
    edgeLength p dy fx fy (shearOf dx dy)

theorem displaced_near {e p dx dy dx' dy' fx fy : ℝ} (he : e < |dy|) (h1 : |dx' - dx| ≤ e) (h2 : |dy' - dy| ≤ e) :
    |-(fy ^ 2 * p) - -(fy ^ 2 * p)| + |(shearOf dx' dy' * fy ^ 2 * p - fx ^ 2 * dy') -
        (shearOf dx dy * fy ^ 2 * p - fx ^ 2 * dy)| ≤
      e * (fx ^ 2 + fy ^ 2 * |p| * (|dx| + |dy|) / (|dy| * (|dy| - e))) := by
  have he0 : 0 ≤ e := (abs_nonneg _).trans h1
  have hd : 0 < |dy| := he0.trans_lt he
  have hdy : dy ≠ 0 := abs_pos.1 hd
  have hd' : |dy| - e ≤ |dy'| := by
    have := abs_sub_abs_le_abs_sub dy dy'
    rw [abs_sub_comm] at this
    linarith
  have hm : 0 < |dy| - e := by linarith
  have hdy' : dy' ≠ 0 := abs_pos.1 (hm.trans_le hd')
  have hs : |shearOf dx' dy' - shearOf dx dy| ≤ e * ((|dx| + |dy|) / (|dy| * (|dy| - e))) := by
    unfold shearOf
    rw [if_neg hdy, if_neg hdy', show -dx' / dy' - -dx / dy = (dx * (dy' - dy) - dy * (dx' - dx)) / (dy * dy') by
      field_simp; ring, abs_div, abs_mul dy dy', ← mul_div_assoc]
    refine div_le_div₀ (by positivity) ?_ (by positivity) (mul_le_mul_of_nonneg_left hd' hd.le)
    refine (abs_sub _ _).trans ?_
    rw [abs_mul, abs_mul]
    have a1 := mul_le_mul_of_nonneg_left h2 (abs_nonneg dx)
    have a2 := mul_le_mul_of_nonneg_left h1 (abs_nonneg dy)
    linarith
  rw [sub_self, abs_zero, zero_add, show (shearOf dx' dy' * fy ^ 2 * p - fx ^ 2 * dy') -
        (shearOf dx dy * fy ^ 2 * p - fx ^ 2 * dy) =
      (shearOf dx' dy' - shearOf dx dy) * (fy ^ 2 * p) - fx ^ 2 * (dy' - dy) by ring]
  refine (abs_sub _ _).trans ?_
  rw [abs_mul, abs_mul, abs_mul, abs_of_nonneg (sq_nonneg fx), abs_of_nonneg (sq_nonneg fy)]
  have b1 := mul_le_mul_of_nonneg_right hs (mul_nonneg (sq_nonneg fy) (abs_nonneg p))
  have b2 := mul_le_mul_of_nonneg_left h2 (sq_nonneg fx)
  refine (add_le_add b1 b2).trans (le_of_eq ?_)
  ring

/-- C111 (partial): the gradient that is computed with a displaced centre is that of the disk, up to its
condition number and the displacement.  Missing: edges that are vertical up to these errors. -/
theorem C111_displaced_partial (L : FloatLib ℝ) (u : ℝ) (hL : Accurate L u) (hu1 : 100 * u ≤ 1)
    (e p dx dy dx' dy' fx fy g : ℝ) (hx : 0 < fx) (hy : 0 < fy) (he : e < |dy|) (h1 : |dx' - dx| ≤ e)
    (h2 : |dy' - dy| ≤ e)
    (hg : Geometry.diskGradient (.fin p) (.fin dx) (.fin dy) (Geometry.shear (.fin dx) (.fin dy)) (.fin fx)
      (.fin fy) = .fin g)
    (hv : 15 * u * fuzz p dx' dy' fx fy (shearOf dx' dy') + drift e p dx dy fx fy < √(1 - g ^ 2)) :
    ∃ g', GeometryRounded.diskGradient L (.fin p) (.fin dx') (.fin dy')
        (GeometryRounded.shear L (.fin dx') (.fin dy')) (.fin fx) (.fin fy) = .fin g' ∧
      |g' - g| ≤ 35 * u * fuzz p dx' dy' fx fy (shearOf dx' dy') + drift e p dx dy fx fy := by
  have he0 : 0 ≤ e := (abs_nonneg _).trans h1
  have hdy : dy ≠ 0 := abs_pos.1 (he0.trans_lt he)
  have hdy' : dy' ≠ 0 := by
    rintro rfl
    rw [zero_sub, abs_neg] at h2
    linarith
  have hnear := displaced_near (fx := fx) (fy := fy) (p := p) he h1 h2
  have hP := edge_pos (s := shearOf dx dy) hx hy (Or.inr hdy : p ≠ 0 ∨ dy ≠ 0)
  have hQ := edge_pos (s := shearOf dx' dy') hx hy (Or.inr hdy' : p ≠ 0 ∨ dy' ≠ 0)
  have hP' := hP
  have hQ' := hQ
  rw [← neg_sq (fy ^ 2 * p)] at hP' hQ'
  rw [gradient_eq p dx dy fx fy (Or.inl hdy)] at hg
  by_cases h0 : shearOf dx dy * fy ^ 2 * p - fx ^ 2 * dy = 0
  · rw [if_pos h0] at hg; cases hg
  rw [if_neg h0] at hg
  injection hg with hg
  have hdrift : 2 * (e * (fx ^ 2 + fy ^ 2 * |p| * (|dx| + |dy|) / (|dy| * (|dy| - e)))) /
      √((-(fy ^ 2 * p)) ^ 2 + (shearOf dx dy * fy ^ 2 * p - fx ^ 2 * dy) ^ 2) = drift e p dx dy fx fy := by
    unfold drift edgeLength; rw [neg_sq]
  rcases gradient_near hL hu1 p dx' dy' fx fy hx hy (Or.inl hdy') (Or.inr hdy') with ⟨-, hn⟩ | ⟨g', eg, n⟩
  · exfalso
    rw [← hg, steep_flat _ _ hP'] at hv
    have hswap := hnear
    rw [add_comm] at hswap
    have hmove := steep_near hswap (by rw [add_comm]; exact hP') (by rw [add_comm]; exact hQ')
    rw [add_comm _ ((-(fy ^ 2 * p)) ^ 2), hdrift] at hmove
    have k : steep (shearOf dx' dy' * fy ^ 2 * p - fx ^ 2 * dy') (-(fy ^ 2 * p)) ≤
        15 * u * fuzz p dx' dy' fx fy (shearOf dx' dy') := by
      unfold steep fuzz edgeLength
      rw [neg_sq, add_comm ((shearOf dx' dy' * fy ^ 2 * p - fx ^ 2 * dy') ^ 2), ← mul_div_assoc]
      exact div_le_div_of_nonneg_right hn (sqrt_nonneg _)
    have := (abs_le.1 hmove).1
    linarith
  · refine ⟨g', eg, ?_⟩
    have hmove := steep_near hnear hP' hQ'
    rw [hdrift, hg] at hmove
    have := abs_sub_le g' (steep (-(fy ^ 2 * p)) (shearOf dx' dy' * fy ^ 2 * p - fx ^ 2 * dy')) g
    linarith

/-- C111 (partial): on an extended grid, the gradient that is computed off the horizontal axis, with the scale
factors of the grid point that it mirrors, is that of the mirrored disk, up to the errors of
`C111_displaced_partial`.  `right` and `up` tell the quadrant. -/
theorem C111_extended_partial (L : FloatLib ℝ) (u : ℝ) (hL : Accurate L u) (hu1 : 100 * u ≤ 1)
    (hF : FloatRounding L.rnd u) (minX maxX numX minY maxY numY maxRf numRf : PyVal ℝ)
    (b d : ℝ) (nx ny : ℕ) (g : GridParams ℝ)
    (ha : IsNumber false minX (.fin 0)) (hb : IsNumber false maxX (.fin b)) (hnx : Count numX nx)
    (hc : IsNumber false minY (.fin 0)) (hd : IsNumber false maxY (.fin d)) (hny : Count numY ny)
    (hx : 2 ≤ nx) (hy : 2 ≤ ny) (hux : 8 * u * nx ≤ 1) (huy : 8 * u * ny ≤ 1)
    (hg : GridRounded.new L.rnd minX maxX numX minY maxY numY maxRf numRf = .ok g) :
    ∃ g', GridRounded.extendGrid L.rnd g = (.ok (), g') ∧
      ∀ j < nx, ∀ i < ny, ∃ x y : ℝ, g.dx.data[j]? = some (.fin x) ∧ g.dy.data[i]? = some (.fin y) ∧
        ∀ right up : Bool, ∃ x' y' : ℝ,
          g'.dx.data[if right then nx - 1 + j else nx - 1 - j]? = some (.fin x') ∧
          g'.dy.data[if up then ny - 1 + i else ny - 1 - i]? = some (.fin y') ∧
          ∀ p fx fy w : ℝ, 0 < fx → 0 < fy → 14 * u * max (L.rnd b) (L.rnd d) < |y| →
            Geometry.diskGradient (.fin (if right then p else -p)) (.fin x) (.fin y)
              (Geometry.shear (.fin x) (.fin y)) (.fin fx) (.fin fy) = .fin w →
            15 * u * fuzz p x' y' fx fy (shearOf x' y') +
              drift (14 * u * max (L.rnd b) (L.rnd d)) (if right then p else -p) x y fx fy < √(1 - w ^ 2) →
            ∃ w', GeometryRounded.diskGradient L (.fin p) (.fin x') (.fin y')
                (GeometryRounded.shear L (.fin x') (.fin y')) (.fin fx) (.fin fy) = .fin w' ∧
              |w' - w| ≤ 35 * u * fuzz p x' y' fx fy (shearOf x' y') +
                drift (14 * u * max (L.rnd b) (L.rnd d)) (if right then p else -p) x y fx fy := by
  have hu := hL.nonneg
  obtain ⟨g', e1, m1, m2, -⟩ := C93_extend_partial hF hu minX maxX numX minY maxY numY maxRf numRf b d nx ny g ha hb
    hnx hc hd hny hx hy hux huy hg
  refine ⟨g', e1, fun j hj i hi => ?_⟩
  obtain ⟨x, xr, xl, hx0, hxr, hxl, nr, nl⟩ := m1.values j hj
  obtain ⟨y, yu, yd, hy0, hyu, hyd, nu, nd⟩ := m2.values i hi
  refine ⟨x, y, hx0, hy0, fun right up => ⟨if right then xr else xl, if up then yu else yd, ?_, ?_, ?_⟩⟩
  · cases right
    · exact hxl
    · exact hxr
  · cases up
    · exact hyd
    · exact hyu
  intro p fx fy w hfx hfy he hw hv
  have hb14 : 14 * u * L.rnd b ≤ 14 * u * max (L.rnd b) (L.rnd d) :=
    mul_le_mul_of_nonneg_left (le_max_left _ _) (by linarith)
  have hd14 : 14 * u * L.rnd d ≤ 14 * u * max (L.rnd b) (L.rnd d) :=
    mul_le_mul_of_nonneg_left (le_max_right _ _) (by linarith)
  generalize 14 * u * max (L.rnd b) (L.rnd d) = E at *
  have hdr : ∀ σ τ : ℝ, (σ = 1 ∨ σ = -1) → (τ = 1 ∨ τ = -1) →
      drift E p (σ * x) (τ * y) fx fy = drift E (σ * p) x y fx fy := by
    intro σ τ hσ hτ
    unfold drift edgeLength
    rw [shearOf_mirror σ τ x y hσ hτ, show σ * τ * shearOf x y * fy ^ 2 * p - fx ^ 2 * (τ * y) =
      τ * (shearOf x y * fy ^ 2 * (σ * p) - fx ^ 2 * y) by ring]
    generalize shearOf x y * fy ^ 2 * (σ * p) - fx ^ 2 * y = D
    rcases hσ with rfl | rfl <;> rcases hτ with rfl | rfl <;> simp
  have key : ∀ σ τ x' y' : ℝ, (σ = 1 ∨ σ = -1) → (τ = 1 ∨ τ = -1) → |x' - σ * x| ≤ E → |y' - τ * y| ≤ E →
      Geometry.diskGradient (.fin (σ * p)) (.fin x) (.fin y) (Geometry.shear (.fin x) (.fin y)) (.fin fx) (.fin fy) =
        .fin w →
      15 * u * fuzz p x' y' fx fy (shearOf x' y') + drift E (σ * p) x y fx fy < √(1 - w ^ 2) →
      ∃ w', GeometryRounded.diskGradient L (.fin p) (.fin x') (.fin y')
          (GeometryRounded.shear L (.fin x') (.fin y')) (.fin fx) (.fin fy) = .fin w' ∧
        |w' - w| ≤ 35 * u * fuzz p x' y' fx fy (shearOf x' y') + drift E (σ * p) x y fx fy := by
    intro σ τ x' y' hσ hτ k1 k2 k3 k4
    have hy0 : y ≠ 0 := by
      rintro rfl
      have := (abs_nonneg _).trans k1
      rw [abs_zero] at he
      linarith
    rw [← hdr σ τ hσ hτ] at k4 ⊢
    refine C111_displaced_partial L u hL hu1 E p (σ * x) (τ * y) x' y' fx fy w hfx hfy ?_ k1 k2 ?_ k4
    · rwa [abs_mul, show |τ| = 1 by rcases hτ with rfl | rfl <;> simp, one_mul]
    · rw [mirror_gradient σ τ p x y fx fy hσ hτ (Or.inl hy0)]
      exact k3
  cases right <;> cases up
  · have := key (-1) (-1) xl yd (Or.inr rfl) (Or.inr rfl) (by rw [neg_one_mul, sub_neg_eq_add]; linarith)
      (by rw [neg_one_mul, sub_neg_eq_add]; linarith)
    rw [neg_one_mul] at this
    exact this hw hv
  · have := key (-1) 1 xl yu (Or.inr rfl) (Or.inl rfl) (by rw [neg_one_mul, sub_neg_eq_add]; linarith)
      (by rw [one_mul]; linarith)
    rw [neg_one_mul] at this
    exact this hw hv
  · have := key 1 (-1) xr yd (Or.inl rfl) (Or.inr rfl) (by rw [one_mul]; linarith)
      (by rw [neg_one_mul, sub_neg_eq_add]; linarith)
    rw [one_mul] at this
    exact this hw hv
  · have := key 1 1 xr yu (Or.inl rfl) (Or.inl rfl) (by rw [one_mul]; linarith) (by rw [one_mul]; linarith)
    rw [one_mul] at this
    exact this hw hv

/-! ## The centre -/

/-- **C111** If the middle values of both extended vectors are the same number instead of zero, and this is small
against the position, the disks that are centred on the star get a gradient of about `1 / √2`, as if their edge
had a slope of 45 degrees. -/
theorem C111_centre (L : FloatLib ℝ) (u : ℝ) (hL : Accurate L u) (hu1 : 1000 * u ≤ 1) (v p fx fy e : ℝ)
    (hx : 0 < fx) (hy : 0 < fy) (hv : v ≠ 0) (he : e ≤ 1 / 10)
    (hsmall : (fx ^ 2 + fy ^ 2) * |v| ≤ e * (fy ^ 2 * |p|)) :
    Geometry.diskGradient (.fin p) (.fin 0) (.fin 0) (Geometry.shear (.fin 0) (.fin 0)) (.fin fx) (.fin fy) = .nan ∧
    ∃ g, GeometryRounded.diskGradient L (.fin p) (.fin v) (.fin v) (GeometryRounded.shear L (.fin v) (.fin v))
        (.fin fx) (.fin fy) = .fin g ∧ |g - 1 / √2| ≤ 2 * e + 90 * u := by
  have hu := hL.nonneg
  constructor
  · rw [gradient_eq _ _ _ _ _ (Or.inr rfl), if_pos]
    simp [shearOf]
  have hs : shearOf v v = -1 := by
    unfold shearOf
    rw [if_neg hv, neg_div, div_self hv]
  have hB : 0 < fy ^ 2 := by positivity
  have hv0 := abs_pos.2 hv
  obtain ⟨A, hA⟩ : ∃ A, A = fy ^ 2 * |p| := ⟨_, rfl⟩
  have hA0 : 0 < A := by
    have h0 : 0 < (fx ^ 2 + fy ^ 2) * |v| := by positivity
    have : 0 ≤ A := by rw [hA]; positivity
    rcases this.lt_or_eq with h | h
    · exact h
    · rw [← hA, ← h] at hsmall
      linarith
  rw [← hA] at hsmall
  have w1 : fx ^ 2 * |v| ≤ e * A := by
    have : 0 ≤ fy ^ 2 * |v| := by positivity
    linarith
  have w2 : fy ^ 2 * |v| ≤ e * A := by
    have : 0 ≤ fx ^ 2 * |v| := by positivity
    linarith
  have he0 : 0 ≤ e := by
    by_contra hneg
    have : e * A < 0 := mul_neg_of_neg_of_pos (not_le.1 hneg) hA0
    have : 0 ≤ fx ^ 2 * |v| := by positivity
    linarith
  have hAp : |fy ^ 2 * p| = A := by rw [abs_mul, abs_of_pos hB, hA]
  have hfv : |fx ^ 2 * v| ≤ e * A := by rw [abs_mul, abs_of_nonneg (sq_nonneg fx)]; exact w1
  have hv2 : |fy ^ 2 * v| ≤ e * A := by rw [abs_mul, abs_of_nonneg (sq_nonneg fy)]; exact w2
  have hpv : |fy ^ 2 * (p - v)| ≤ (1 + e) * A := by
    rw [mul_sub]
    refine (abs_sub _ _).trans ?_
    rw [hAp]
    linarith
  have hlen : A ≤ edgeLength p v fx fy (-1) := by
    unfold edgeLength
    refine le_sqrt_of_sq_le ?_
    rw [← hAp, sq_abs]
    linarith [sq_nonneg (-1 * fy ^ 2 * p - fx ^ 2 * v)]
  have hterms : terms p v v fx fy (-1) ≤ 5 / 2 * A := by
    unfold terms
    have t1 : |-1 * fy ^ 2 * v| ≤ e * A := by rw [show -1 * fy ^ 2 * v = -(fy ^ 2 * v) by ring, abs_neg]; exact hv2
    have t2 : |((-1) ^ 2 * fy ^ 2 + fx ^ 2) * v| ≤ e * A := by
      rw [abs_mul, abs_of_nonneg (by positivity)]
      linarith
    have t3 : |-1 * fy ^ 2 * (p - v)| ≤ (1 + e) * A := by
      rw [show -1 * fy ^ 2 * (p - v) = -(fy ^ 2 * (p - v)) by ring, abs_neg]
      exact hpv
    have t4 := mul_le_mul_of_nonneg_right he hA0.le
    refine (add_le_add (add_le_add t1 hpv) (add_le_add t2 t3)).trans ?_
    linarith
  have hfz : fuzz p v v fx fy (-1) ≤ 5 / 2 := by
    unfold fuzz
    rw [div_le_iff₀ (hA0.trans_le hlen)]
    exact hterms.trans (mul_le_mul_of_nonneg_left hlen (by norm_num))
  have hQ := edge_pos (s := -1) hx hy (Or.inr hv : p ≠ 0 ∨ v ≠ 0)
  rw [← neg_sq (fy ^ 2 * p)] at hQ
  have hst : |steep (-(fy ^ 2 * p)) (-1 * fy ^ 2 * p - fx ^ 2 * v) - 1 / √2| ≤ 2 * e := by
    have h45 : steep (-(fy ^ 2 * p)) (-(fy ^ 2 * p)) = 1 / √2 := by
      unfold steep
      rw [neg_sq, abs_neg, ← two_mul, sqrt_mul (by norm_num), sqrt_sq_eq_abs, hAp]
      field_simp
    have hP : 0 < (-(fy ^ 2 * p)) ^ 2 + (-(fy ^ 2 * p)) ^ 2 := by
      rw [neg_sq, ← sq_abs, hAp]
      positivity
    have := steep_near (n := -(fy ^ 2 * p)) (d := -(fy ^ 2 * p)) (n' := -(fy ^ 2 * p))
      (d' := -1 * fy ^ 2 * p - fx ^ 2 * v) (e := e * A) (by
        rw [sub_self, abs_zero, zero_add, show -1 * fy ^ 2 * p - fx ^ 2 * v - -(fy ^ 2 * p) = -(fx ^ 2 * v) by ring,
          abs_neg]
        exact hfv) hP hQ
    rw [h45] at this
    refine this.trans ?_
    rw [div_le_iff₀ (sqrt_pos.2 hP)]
    have : A ≤ √((-(fy ^ 2 * p)) ^ 2 + (-(fy ^ 2 * p)) ^ 2) := by
      refine le_sqrt_of_sq_le ?_
      rw [neg_sq, ← hAp, sq_abs]
      linarith [sq_nonneg (fy ^ 2 * p)]
    have := mul_le_mul_of_nonneg_left this he0
    linarith
  have hnear := gradient_near hL (by linarith) p v v fx fy hx hy (Or.inl hv) (Or.inr hv)
  rw [hs] at hnear
  rcases hnear with ⟨-, hn⟩ | ⟨g, eg, n⟩
  · exfalso
    have h1 : (1 - e) * A ≤ |-1 * fy ^ 2 * p - fx ^ 2 * v| := by
      have := abs_sub_abs_le_abs_sub (-1 * fy ^ 2 * p) (fx ^ 2 * v)
      rw [show -1 * fy ^ 2 * p = -(fy ^ 2 * p) by ring, abs_neg, hAp] at this
      rw [show -1 * fy ^ 2 * p = -(fy ^ 2 * p) by ring]
      linarith
    have h2 := mul_le_mul_of_nonneg_left hterms (show 0 ≤ 15 * u by linarith)
    have h3 := mul_le_mul_of_nonneg_right he hA0.le
    have h4 := mul_le_mul_of_nonneg_right hu1 hA0.le
    linarith
  · refine ⟨g, eg, ?_⟩
    have h1 := abs_sub_le g (steep (-(fy ^ 2 * p)) (-1 * fy ^ 2 * p - fx ^ 2 * v)) (1 / √2)
    have h2 := mul_le_mul_of_nonneg_left hfz (show 0 ≤ 35 * u by linarith)
    linarith

/-- With the number of `C111_false` in binary64. -/
example : ∃ g, GeometryRounded.diskGradient .double (.fin (3 / 8)) (.fin (-1 / 2 ^ 53)) (.fin (-1 / 2 ^ 53))
      (GeometryRounded.shear .double (.fin (-1 / 2 ^ 53)) (.fin (-1 / 2 ^ 53))) (.fin 1) (.fin 2) = .fin g ∧
    |g - 1 / √2| ≤ 1 / 10 ^ 13 := by
  obtain ⟨g, e, h⟩ := (C111_centre .double (1 / 2 ^ 53) double_accurate (by norm_num) (-1 / 2 ^ 53) (3 / 8) 1 2
    (1 / 2 ^ 51) one_pos two_pos (by norm_num) (by norm_num) (by
      rw [show |(-1 / 2 ^ 53 : ℝ)| = 1 / 2 ^ 53 by rw [neg_div, abs_neg, abs_of_pos (by norm_num)],
        abs_of_pos (by norm_num : (0 : ℝ) < 3 / 8)]
      norm_num)).2
  exact ⟨g, e, h.trans (by norm_num)⟩

/-- The hypotheses of `C111_displaced_partial` are met in binary64. -/
example : ∃ g, GeometryRounded.diskGradient .double (.fin 1) (.fin 0) (.fin (1 + 1 / 2 ^ 40))
      (GeometryRounded.shear .double (.fin 0) (.fin (1 + 1 / 2 ^ 40))) (.fin 1) (.fin 1) = .fin g ∧
    |g - 1 / √2| ≤ 1 / 10 ^ 11 := by
  have hs : ∀ y, shearOf 0 y = 0 := by
    intro y
    unfold shearOf
    split <;> simp
  have hg : Geometry.diskGradient (.fin 1) (.fin 0) (.fin 1) (Geometry.shear (.fin 0) (.fin 1)) (.fin 1)
      (.fin 1) = .fin (1 / √2) := by
    rw [gradient_eq _ _ _ _ _ (Or.inr rfl), hs, if_neg (by norm_num)]
    congr 1
    unfold steep
    norm_num
  have hf : fuzz 1 0 (1 + 1 / 2 ^ 40) 1 1 0 ≤ 3 := by
    unfold fuzz terms edgeLength
    rw [div_le_iff₀ (sqrt_pos.2 (by norm_num))]
    have : (1 : ℝ) ≤ √((1 ^ 2 * 1) ^ 2 + (0 * 1 ^ 2 * 1 - 1 ^ 2 * (1 + 1 / 2 ^ 40)) ^ 2) :=
      le_sqrt_of_sq_le (by norm_num)
    refine le_trans ?_ (mul_le_mul_of_nonneg_left this (by norm_num))
    norm_num
  have hd : drift (1 / 2 ^ 40) 1 0 1 1 1 ≤ 5 / 2 ^ 40 := by
    unfold drift edgeLength
    rw [hs, div_le_iff₀ (sqrt_pos.2 (by norm_num))]
    have : (1 : ℝ) ≤ √((1 ^ 2 * 1) ^ 2 + (0 * 1 ^ 2 * 1 - 1 ^ 2 * 1) ^ 2) := le_sqrt_of_sq_le (by norm_num)
    refine le_trans ?_ (mul_le_mul_of_nonneg_left this (by norm_num))
    norm_num
  have hr : (0.7 : ℝ) ≤ √(1 - (1 / √2) ^ 2) := le_sqrt_of_sq_le (by
    rw [div_pow, sq_sqrt (by norm_num)]; norm_num)
  obtain ⟨g, e, h⟩ := C111_displaced_partial .double (1 / 2 ^ 53) double_accurate (by norm_num) (1 / 2 ^ 40) 1 0 1 0
    (1 + 1 / 2 ^ 40) 1 1 (1 / √2) one_pos one_pos (by norm_num) (by norm_num) (by norm_num) hg (by
      rw [hs]
      have := mul_le_mul_of_nonneg_left hf (by norm_num : (0 : ℝ) ≤ 15 * (1 / 2 ^ 53))
      norm_num at this hd hr ⊢
      linarith)
  refine ⟨g, e, h.trans ?_⟩
  rw [hs]
  have := mul_le_mul_of_nonneg_left hf (by norm_num : (0 : ℝ) ≤ 35 * (1 / 2 ^ 53))
  norm_num at this hd ⊢
  linarith

/-- The hypotheses of `C111_extended_partial` are met in binary64. -/
example : Accurate .double (1 / 2 ^ 53) ∧ FloatRounding FloatLib.double.rnd (1 / 2 ^ 53) ∧
    ∃ g, GridRounded.new (K := ℝ) FloatLib.double.rnd (.int 0) (.int 1) (.int 50) (.int 0) (.int 1) (.int 50)
      (.int 2) (.int 2) = .ok g ∧ 8 * (1 / 2 ^ 53 : ℝ) * (50 : ℕ) ≤ 1 := by
  refine ⟨double_accurate, double_rounding,
    gridOfR FloatLib.double.rnd (.fin 0) (.fin 1) 50 (.fin 0) (.fin 1) 50 (.fin 2) 2, ?_, by norm_num⟩
  have n : ∀ k : ℤ, IsNumber false (.int k : PyVal ℝ) (.fin k) := fun k => Or.inl ⟨k, .int k, by simp⟩
  have c : ∀ k : ℕ, 1 ≤ k → Count (.int k : PyVal ℝ) k := fun k hk => ⟨hk, .int k⟩
  have l : ¬ LessEq (.fin (1 : ℝ)) (.fin 0) := by rw [lessEq_iff]; simp
  have n0 := n 0
  have n1 := n 1
  have n2 := n 2
  norm_num at n0 n1 n2
  refine (newR_ok_iff ..).2 ⟨_, _, 50, _, _, 50, _, 2, ⟨n0, n1, l, c 50 (by norm_num)⟩,
    ⟨n0, n1, l, c 50 (by norm_num)⟩, ⟨n2, ?_, c 2 (by norm_num)⟩, rfl⟩
  rw [less_iff]
  simp [XF.lt]

/-- C111 (negation): in binary64, fifty by fifty points from 0 to 1 extend to a grid whose middle point is not
the origin but has twice the same coordinate.  Disks with `fx = 1` and `fy = 2` there are centred on the star,
and their edge is vertical where they meet the star path; but the tangent that is computed is 1 if the star is
three eighths of the eclipse duration from the middle. -/
theorem C111_false : ∃ (g g' : GridParams ℚ) (v : ℚ),
    GridRounded.new toDouble (.int 0) (.int 1) (.int 50) (.int 0) (.int 1) (.int 50) (.int 2) (.int 2) = .ok g ∧
    GridRounded.extendGrid toDouble g = (.ok (), g') ∧
    g.dx.data[0]? = some (.fin 0) ∧ g.dy.data[0]? = some (.fin 0) ∧
    g'.dx.data[49]? = some (.fin v) ∧ g'.dy.data[49]? = some (.fin v) ∧ v ≠ 0 ∧
    ∀ L : FloatLib ℚ, L.rnd = toDouble →
      GeometryRounded.diskGradient L (.fin (3 / 8)) (.fin v) (.fin v) (GeometryRounded.shear L (.fin v) (.fin v))
        (.fin 1) (.fin 2) = .fin |L.sin (L.arctan2 1 1)| := by
  have hu : (1 / 2 ^ 53 : ℚ) < 1 := by norm_num
  have e := extendGridR_ok toDouble_rounding hu (x := 1) (y := 1) one_pos one_pos
    (nx := 50) (ny := 50) (by norm_num) (by norm_num) (.fin 2) 2
  refine ⟨_, _, toDouble (toDouble (49 * toDouble (2 / 98)) + -1), by decide +kernel, e, by decide +kernel,
    by decide +kernel, by decide +kernel, by decide +kernel, by decide +kernel, ?_⟩
  intro L hL
  have hv : toDouble (toDouble (49 * toDouble (2 / 98)) + -1) = -1 / 2 ^ 53 := by decide +kernel
  rw [hv]
  have hs : GeometryRounded.shear L (.fin (-1 / 2 ^ 53)) (.fin (-1 / 2 ^ 53)) = .fin (-1) := by
    simp only [GeometryRounded.shear, FloatLib.div, hL]
    decide +kernel
  rw [hs]
  have h : L.div (L.sub (L.mul (L.mul (XF.fin (-1 : ℚ)).neg (L.sq (.fin 2))) (XF.fin (-1 / 2 ^ 53 : ℚ)).neg)
        (L.mul (L.sq (.fin 2)) (L.sub (.fin (3 / 8)) (.fin (-1 / 2 ^ 53)))))
      (L.add (L.mul (L.add (L.mul (L.sq (.fin (-1))) (L.sq (.fin 2))) (L.sq (.fin 1))) (XF.fin (-1 / 2 ^ 53 : ℚ)).neg)
        (L.mul (L.mul (.fin (-1)) (L.sq (.fin 2))) (L.sub (.fin (3 / 8)) (.fin (-1 / 2 ^ 53))))) = .fin 1 := by
    simp only [FloatLib.sub, FloatLib.mul, FloatLib.sq, FloatLib.add, FloatLib.div, hL]
    decide +kernel
  have h0 : XF.eqb (L.add (L.mul (L.add (L.mul (L.sq (.fin (-1))) (L.sq (.fin 2))) (L.sq (.fin 1)))
        (XF.fin (-1 / 2 ^ 53 : ℚ)).neg)
        (L.mul (L.mul (.fin (-1)) (L.sq (.fin 2))) (L.sub (.fin (3 / 8)) (.fin (-1 / 2 ^ 53))))) (.fin 0) = false := by
    simp only [FloatLib.sub, FloatLib.mul, FloatLib.sq, FloatLib.add, hL]
    decide +kernel
  unfold GeometryRounded.diskGradient
  simp only [h, h0, Bool.not_false, if_true]
  rfl

end Beyonce
