import Verif.Props.DoubleLib

/-!
# Property C108: the edge of the disk in floating point passes the ends of the eclipse
-/

set_option linter.unusedSectionVars false

namespace Beyonce
open Spec Real

/-- How far out a point is in an ellipse around the origin with semi-axes `a` and `b`, the first at angle
`τ`: the square of the factor by which the ellipse has to grow to reach the point. -/
noncomputable def Spec.level (a b τ : ℝ) (p : ℝ × ℝ) : ℝ :=
  ((p.1 * cos τ + p.2 * sin τ) / a) ^ 2 + ((p.2 * cos τ - p.1 * sin τ) / b) ^ 2

/-- The level is 1 exactly on the edge. -/
theorem level_one (a b τ : ℝ) (ha : 0 < a) (hb : 0 < b) (p : ℝ × ℝ) :
    level a b τ p = 1 ↔ p ∈ Set.range (tilted a b τ) := by
  have h1 := sin_sq_add_cos_sq τ
  constructor
  · intro h
    obtain ⟨φ, h2, h3⟩ := exists_angle _ _ h
    refine ⟨φ, ?_⟩
    unfold tilted
    rw [h2, h3, mul_div_cancel₀ _ ha.ne', mul_div_cancel₀ _ hb.ne']
    refine Prod.ext ?_ ?_
    · simp only; linear_combination p.1 * h1
    · simp only; linear_combination p.2 * h1
  · rintro ⟨φ, rfl⟩
    unfold level tilted
    simp only
    rw [show (a * cos φ * cos τ - b * sin φ * sin τ) * cos τ + (a * cos φ * sin τ + b * sin φ * cos τ) * sin τ =
        a * cos φ by linear_combination a * cos φ * h1,
      show (a * cos φ * sin τ + b * sin φ * cos τ) * cos τ - (a * cos φ * cos τ - b * sin φ * sin τ) * sin τ =
        b * sin φ by linear_combination b * sin φ * h1,
      mul_div_cancel_left₀ _ ha.ne', mul_div_cancel_left₀ _ hb.ne']
    linear_combination sin_sq_add_cos_sq φ

/-- The level of a point on a larger copy of the ellipse. -/
theorem level_scale (a b τ l : ℝ) (p : ℝ × ℝ) : level a b τ (l * p.1, l * p.2) = l ^ 2 * level a b τ p := by
  unfold level
  simp only
  ring

/-- The level of a point of another ellipse. -/
theorem level_tilted {R c R' c' τ τ' φ : ℝ} (hR : 0 < R) (hc : 0 < c) (hR' : 0 < R') (hc' : 0 < c') :
    level R' (R' * c') τ' (tilted R (R * c) τ φ) =
      (1 / (R' / R)) ^ 2 * (cos φ * cos (τ' - τ) + c * (sin φ * sin (τ' - τ))) ^ 2 +
        (1 / (R' * c' / (R * c))) ^ 2 * (sin φ * cos (τ' - τ) - 1 / c * (cos φ * sin (τ' - τ))) ^ 2 := by
  have e1 : (tilted R (R * c) τ φ).1 * cos τ' + (tilted R (R * c) τ φ).2 * sin τ' =
      R * (cos φ * cos (τ' - τ) + c * (sin φ * sin (τ' - τ))) := by
    unfold tilted; simp only; rw [cos_sub, sin_sub]; ring
  have e2 : (tilted R (R * c) τ φ).2 * cos τ' - (tilted R (R * c) τ φ).1 * sin τ' =
      R * c * (sin φ * cos (τ' - τ) - 1 / c * (cos φ * sin (τ' - τ))) := by
    unfold tilted; simp only; rw [cos_sub, sin_sub]; field_simp; ring
  unfold level
  rw [e1, e2]
  field_simp

theorem inv_sq_near {x ε : ℝ} (h : |x - 1| ≤ ε) (hε : ε ≤ 0.11) : |(1 / x) ^ 2 - 1| ≤ 2.67 * ε := by
  obtain ⟨h1, h2⟩ := abs_le.1 h
  have hx : 0.89 ≤ x := by linarith
  have hx0 : 0 < x := by linarith
  have e : (1 / x) ^ 2 - 1 = -(x - 1) * (x + 1) / x ^ 2 := by field_simp; ring
  rw [e, abs_div, abs_of_pos (by positivity : 0 < x ^ 2), div_le_iff₀ (by positivity), abs_mul, abs_neg,
    abs_of_pos (by linarith : 0 < x + 1)]
  have hε0 : 0 ≤ ε := (abs_nonneg _).trans h
  have k1 : x + 1 ≤ 2.67 * x ^ 2 := by nlinarith
  calc |x - 1| * (x + 1) ≤ ε * (2.67 * x ^ 2) := mul_le_mul h k1 (by linarith) hε0
    _ = _ := by ring

/-- Two bounds of a rotation. -/
theorem turned {K c φ δ m : ℝ} (hc : 0 < c) (hc1 : c ≤ 1) (hK : K = 1 / c) (hm : |sin δ| ≤ m) :
    |(cos φ * cos δ + c * (sin φ * sin δ)) ^ 2 + (sin φ * cos δ - K * (cos φ * sin δ)) ^ 2 - 1| ≤
      (K ^ 2 - 1) * (|sin δ| * m + m / K) := by
  have hK0 : 0 < K := by rw [hK]; positivity
  have hKc : K * c = 1 := by rw [hK]; field_simp
  have hK1 : 1 ≤ K := by rw [hK]; exact (one_le_div hc).2 hc1
  have e : (cos φ * cos δ + c * (sin φ * sin δ)) ^ 2 + (sin φ * cos δ - K * (cos φ * sin δ)) ^ 2 - 1 =
      (K ^ 2 - 1) * (sin δ * sin δ * (cos φ ^ 2 - c ^ 2 * sin φ ^ 2) - sin δ * (cos δ * (c * sin (2 * φ)))) := by
    have h1 := sin_sq_add_cos_sq φ
    have h2 := sin_sq_add_cos_sq δ
    have h3 : K ^ 2 * c ^ 2 = 1 := by rw [← mul_pow, hKc, one_pow]
    have h4 : K ^ 2 * c = K := by rw [sq, mul_assoc, hKc, mul_one]
    rw [sin_two_mul]
    linear_combination h1 + (cos φ ^ 2 + sin φ ^ 2) * h2 + (sin δ ^ 2 * sin φ ^ 2) * h3 +
      (2 * sin δ * cos δ * sin φ * cos φ) * h4 
  rw [e, abs_mul, abs_of_nonneg (by nlinarith : 0 ≤ K ^ 2 - 1)]
  refine mul_le_mul_of_nonneg_left ((abs_sub _ _).trans ?_) (by nlinarith)
  rw [abs_mul, abs_mul, abs_mul, abs_mul, abs_mul, abs_of_pos hc]
  have g1 : |cos φ ^ 2 - c ^ 2 * sin φ ^ 2| ≤ 1 := by
    have := sin_sq_add_cos_sq φ
    have i1 := sq_nonneg (cos φ)
    have i2 := sq_nonneg (sin φ)
    have i3 : c ^ 2 * sin φ ^ 2 ≤ 1 * sin φ ^ 2 :=
      mul_le_mul_of_nonneg_right (pow_le_one₀ hc.le hc1) i2
    have i4 : 0 ≤ c ^ 2 * sin φ ^ 2 := by positivity
    exact abs_le.2 ⟨by linarith, by linarith⟩
  have g2 := abs_sin_le_one (2 * φ)
  have g3 := abs_cos_le_one δ
  have g4 := abs_nonneg (sin δ)
  have hm0 := g4.trans hm
  have k1 : |sin δ| * |sin δ| * |cos φ ^ 2 - c ^ 2 * sin φ ^ 2| ≤ |sin δ| * m * 1 :=
    mul_le_mul (mul_le_mul_of_nonneg_left hm g4) g1 (abs_nonneg _) (by positivity)
  have k2 : |sin δ| * (|cos δ| * (c * |sin (2 * φ)|)) ≤ m * (1 * (c * 1)) :=
    mul_le_mul hm (mul_le_mul g3 (mul_le_mul_of_nonneg_left g2 hc.le) (by positivity) zero_le_one)
      (by positivity) hm0
  have k3 : m / K = m * c := by rw [hK]; field_simp
  rw [k3]
  linarith

/-- The error that comes from the tilt: either the tilt is accurate or the disk is nearly round. -/
theorem turned_near {K c φ δ u : ℝ} (hu : 0 ≤ u) (hc : 0 < c) (hc1 : c ≤ 1) (hK : K = 1 / c)
    (hw : 4000 * u * K ^ 2 ≤ 1)
    (hδ : c < 1 → 1000 * u * (K * ((K ^ 2 + 1) / (K ^ 2 - 1))) ≤ 1 →
      |sin δ| ≤ 110 * u * (K * ((K ^ 2 + 1) / (K ^ 2 - 1)))) :
    |(cos φ * cos δ + c * (sin φ * sin δ)) ^ 2 + (sin φ * cos δ - K * (cos φ * sin δ)) ^ 2 - 1| ≤
      5200 * u * K ^ 2 := by
  have hK1 : 1 ≤ K := by rw [hK]; exact (one_le_div hc).2 hc1
  have hK0 : 0 < K := by linarith
  have hs1 := abs_sin_le_one δ
  have hs0 := abs_nonneg (sin δ)
  have hV : 0 ≤ K ^ 2 - 1 := by nlinarith
  by_cases hr : c < 1
  · have hKs : 1 < K := by rw [hK]; exact (one_lt_div hc).2 hr
    have hV0 : 0 < K ^ 2 - 1 := by nlinarith
    by_cases hsk : 1000 * u * (K * ((K ^ 2 + 1) / (K ^ 2 - 1))) ≤ 1
    · have hm := hδ hr hsk
      refine (turned hc hc1 hK hm).trans ?_
      generalize hme : 110 * u * (K * ((K ^ 2 + 1) / (K ^ 2 - 1))) = m at hm
      have hVm : (K ^ 2 - 1) * m = 110 * u * (K * (K ^ 2 + 1)) := by rw [← hme]; field_simp
      have e : (K ^ 2 - 1) * (|sin δ| * m + m / K) = (K ^ 2 - 1) * m * |sin δ| + (K ^ 2 - 1) * m / K := by ring
      have e2 : 110 * u * (K * (K ^ 2 + 1)) / K = 110 * u * (K ^ 2 + 1) := by field_simp
      rw [e, hVm, e2]
      have p1 : 110 * u * (K ^ 2 + 1) ≤ 220 * u * K ^ 2 := by nlinarith
      have p2 : 110 * u * (K * (K ^ 2 + 1)) * |sin δ| ≤ 320 * u * K ^ 2 := by
        by_cases hbig : 2 ≤ K ^ 2
        · have q1 : m ≤ 330 * u * K := by
            have : (K ^ 2 - 1) * m ≤ (K ^ 2 - 1) * (330 * u * K) := by
              rw [hVm]
              have : 0 ≤ u * K * (K ^ 2 - 2) := by
                have : 0 ≤ K ^ 2 - 2 := by linarith
                positivity
              nlinarith
            exact le_of_mul_le_mul_left this hV0
          have q2 : |sin δ| ≤ 330 * u * K := hm.trans q1
          have q3 : 110 * u * (K * (K ^ 2 + 1)) * |sin δ| ≤ 110 * u * (K * (K ^ 2 + 1)) * (330 * u * K) :=
            mul_le_mul_of_nonneg_left q2 (by positivity)
          have q4 : 110 * u * (K * (K ^ 2 + 1)) * (330 * u * K) = 110 * u * (K ^ 2 + 1) * (330 * u * K ^ 2) := by
            ring
          have q5 : 110 * u * (K ^ 2 + 1) * (330 * u * K ^ 2) ≤ 110 * u * (K ^ 2 + 1) * 1 :=
            mul_le_mul_of_nonneg_left (by nlinarith) (by positivity)
          have : 0 ≤ u * K ^ 2 := by positivity
          linarith
        · have q1 : K ≤ 1.42 := by nlinarith
          have q2 : 110 * u * (K * (K ^ 2 + 1)) * |sin δ| ≤ 110 * u * (K * (K ^ 2 + 1)) * 1 :=
            mul_le_mul_of_nonneg_left hs1 (by positivity)
          have q3 : 110 * u * (K ^ 2 + 1) * K ≤ 220 * u * K ^ 2 * 1.42 :=
            mul_le_mul p1 q1 hK0.le (by positivity)
          have : 0 ≤ u * K ^ 2 := by positivity
          linarith
      have : 0 ≤ u * K ^ 2 := by positivity
      linarith
    · refine (turned hc hc1 hK hs1).trans ?_
      have k1 : K ^ 2 - 1 < 1000 * u * (K * (K ^ 2 + 1)) := by
        have := mul_lt_mul_of_pos_right (not_le.1 hsk) hV0
        rw [show 1000 * u * (K * ((K ^ 2 + 1) / (K ^ 2 - 1))) * (K ^ 2 - 1) = 1000 * u * (K * (K ^ 2 + 1)) by
          field_simp] at this
        linarith
      have k2 : 1000 * u * (K * (K ^ 2 + 1)) ≤ (K ^ 2 + 1) / 4 := by
        have i1 : u * K ≤ u * K ^ 2 := by nlinarith [mul_nonneg hu hK0.le]
        have i2 := mul_le_mul_of_nonneg_right (show 4000 * (u * K) ≤ 1 by linarith) (show 0 ≤ K ^ 2 + 1 by positivity)
        linarith
      have k3 : K ≤ 1.3 := by nlinarith
      have k4 : 1 / K ≤ 1 := (div_le_one hK0).2 hK1
      have k5 : (K ^ 2 - 1) * (|sin δ| * 1 + 1 / K) ≤ (K ^ 2 - 1) * 2 :=
        mul_le_mul_of_nonneg_left (by linarith) hV
      have k6 : u * (K * (K ^ 2 + 1)) ≤ u * (1.3 * (2 * K ^ 2)) :=
        mul_le_mul_of_nonneg_left (mul_le_mul k3 (by nlinarith) (by positivity) (by norm_num)) hu
      linarith
  · have hc' : c = 1 := le_antisymm hc1 (not_lt.1 hr)
    refine (turned hc hc1 hK hs1).trans ?_
    rw [hK, hc']
    norm_num
    positivity

theorem weighted {g h A B k N : ℝ} (hg : |g - 1| ≤ k) (hh : |h - 1| ≤ k) (hN : |A ^ 2 + B ^ 2 - 1| ≤ N) :
    |g * A ^ 2 + h * B ^ 2 - 1| ≤ k * (1 + N) + N := by
  have e : g * A ^ 2 + h * B ^ 2 - 1 = ((g - 1) * A ^ 2 + (h - 1) * B ^ 2) + (A ^ 2 + B ^ 2 - 1) := by ring
  rw [e]
  refine (abs_add_le _ _).trans (add_le_add ((abs_add_le _ _).trans ?_) hN)
  rw [abs_mul, abs_mul, abs_of_nonneg (sq_nonneg A), abs_of_nonneg (sq_nonneg B)]
  have h1 := mul_le_mul_of_nonneg_right hg (sq_nonneg A)
  have h2 := mul_le_mul_of_nonneg_right hh (sq_nonneg B)
  have hk := (abs_nonneg _).trans hg
  have h3 := mul_le_mul_of_nonneg_left (abs_le.1 hN).2 hk
  linarith

/-- **C108** Every point of the ellipse that is sheared and stretched from the circle lies on the edge of
the disk that is computed in floating point from the same scale factors, up to `8000 u` divided by the
square of the cosine of the inclination. -/
theorem C108_edge (L : FloatLib ℝ) (u : ℝ) (hL : Accurate L u) (fx fy s ρ : ℝ)
    (hx : 0 < fx) (hy : 0 < fy) (hρ : 0 < ρ) (R i t : ℝ)
    (h : Geometry.diskParameters (.fin fx) (.fin fy) (.fin s) (.fin ρ) = (.fin R, .fin i, .fin t))
    (hw : 4000 * u * (1 / cos (rad i)) ^ 2 ≤ 1) :
    ∃ R' i' t', GeometryRounded.diskParameters L (.fin fx) (.fin fy) (.fin s) (.fin ρ) =
        (.fin R', .fin i', .fin t') ∧ 0 < R' ∧ 0 < cos (rad i') ∧
      ∀ θ, |level R' (R' * cos (rad i')) (rad t') (sheared fx fy s ρ θ) - 1| ≤
        8000 * u * (1 / cos (rad i)) ^ 2 := by
  have hu := hL.nonneg
  obtain ⟨a0, i0, t0, hd1, hG, hS, hR, -, -⟩ := C52_axes fx fy s ρ hx hy hρ
  obtain ⟨a1, i1, t1, hd2, hset⟩ := C53_same_ellipse fx fy s ρ hx hy hρ
  rw [h] at hd1 hd2
  obtain ⟨rfl, rfl, rfl⟩ : R = a0 ∧ i = i0 ∧ t = t0 := by
    injection hd1 with g1 g2
    injection g2 with g2 g3
    injection g1 with g1
    injection g2 with g2
    injection g3 with g3
    exact ⟨g1, g2, g3⟩
  obtain ⟨rfl, rfl, rfl⟩ : R = a1 ∧ i = i1 ∧ t = t1 := by
    injection hd2 with g1 g2
    injection g2 with g2 g3
    injection g1 with g1
    injection g2 with g2
    injection g3 with g3
    exact ⟨g1, g2, g3⟩
  have hc : 0 < cos (rad i) := by
    obtain ⟨⟨θ, hθ⟩, -⟩ := hS
    have := size_pos_sheared fx fy s ρ θ hx hy hρ
    simp only at hθ
    rw [hθ] at this
    exact pos_of_mul_pos_right this hR.le
  have hc1 := cos_le_one (rad i)
  generalize hce : cos (rad i) = c at *
  generalize hK : 1 / c = K at *
  have hK1 : 1 ≤ K := by rw [← hK]; exact (one_le_div hc).2 hc1
  have hK0 : 0 < K := by linarith
  have hKc : K * c = 1 := by rw [← hK]; field_simp
  have huK : u ≤ u * K := by nlinarith
  have huK2 : u * K ≤ u * K ^ 2 := by nlinarith [mul_nonneg hu hK0.le]
  obtain ⟨R', i', t', hd, n1, -, n2⟩ := C105_axes L u hL (by linarith) fx fy s ρ hx hy hρ _ _ hG hS
  rw [mul_div_cancel_left₀ _ hR.ne'] at n2
  -- the axes
  obtain ⟨α, hα⟩ : ∃ α, α = R' / R - 1 := ⟨_, rfl⟩
  obtain ⟨e, he⟩ : ∃ e, e = cos (rad i') - c := ⟨_, rfl⟩
  have hRα : R' / R = 1 + α := by rw [hα]; ring
  have hα1 : |α| ≤ 117 * u := by
    rw [hα, div_sub_one hR.ne', abs_div, abs_of_pos hR, div_le_iff₀ hR]; exact n1
  rw [← he] at n2
  have hR' : 0 < R' := by
    have h1 := (abs_le.1 hα1).1
    have h2 : 0 < 1 + α := by linarith
    rw [← hRα] at h2
    exact (div_pos_iff_of_pos_right hR).1 h2
  have heK : |e * K| ≤ 290 * u * K := by
    rw [abs_mul, abs_of_pos hK0]; exact mul_le_mul_of_nonneg_right n2 hK0.le
  have hc' : 0 < cos (rad i') := by
    have h1 := (abs_le.1 heK).1
    have h2 : 0 < (1 + e * K) * c := mul_pos (by linarith) hc
    have h3 : (1 + e * K) * c = cos (rad i') := by
      rw [he]; linear_combination (cos (rad i') - c) * hKc
    rwa [h3] at h2
  refine ⟨R', i', t', hd, hR', hc', fun θ => ?_⟩
  have hmem : sheared fx fy s ρ θ ∈ Set.range (tilted R (R * c) (rad t)) := by
    rw [← hset]; exact ⟨θ, rfl⟩
  obtain ⟨φ, hφ⟩ := hmem
  rw [← hφ, level_tilted hR hc hR' hc', hK]
  have hβ : R' * cos (rad i') / (R * c) = (1 + α) * (1 + e * K) := by
    rw [← hRα, he, ← hK]; field_simp; ring
  have g1 : |(1 / (R' / R)) ^ 2 - 1| ≤ 1111 * u * K := by
    refine (inv_sq_near (ε := 117 * u) (by rw [← hα]; exact hα1) (by linarith)).trans ?_
    linarith
  have g2 : |(1 / (R' * cos (rad i') / (R * c))) ^ 2 - 1| ≤ 1111 * u * K := by
    refine (inv_sq_near (ε := 416 * u * K) ?_ (by linarith)).trans (by linarith [mul_nonneg hu hK0.le])
    rw [hβ, show (1 + α) * (1 + e * K) - 1 = α + e * K + α * (e * K) by ring]
    have q1 : |α * (e * K)| ≤ 117 * u * (290 * u * K) := by
      rw [abs_mul]; exact mul_le_mul hα1 heK (abs_nonneg _) (by positivity)
    have q2 : 117 * u * (290 * u * K) ≤ 117 * (1 / 4000) * (290 * u * K) :=
      mul_le_mul_of_nonneg_right (by linarith) (by positivity)
    have q3 := abs_add_le (α + e * K) (α * (e * K))
    have q4 := abs_add_le α (e * K)
    linarith [mul_nonneg hu hK0.le]
  have hskew : skew R (R * c) = K * ((K ^ 2 + 1) / (K ^ 2 - 1)) := by
    unfold skew
    rw [← hK]
    by_cases hcc : c = 1
    · subst hcc; norm_num
    · have hlt : c < 1 := lt_of_le_of_ne hc1 hcc
      have : 1 - c ^ 2 ≠ 0 := by nlinarith
      have : R ^ 2 - (R * c) ^ 2 ≠ 0 := by
        rw [show R ^ 2 - (R * c) ^ 2 = R ^ 2 * (1 - c ^ 2) by ring]; positivity
      have h2 : (1 / c) ^ 2 - 1 ≠ 0 := by
        rw [show (1 / c) ^ 2 - 1 = (1 - c ^ 2) / c ^ 2 by field_simp]; positivity
      field_simp
  have hN := turned_near (φ := φ) (δ := rad t' - rad t) hu hc hc1 hK.symm hw (by
    intro hlt hs
    rw [← hskew] at hs ⊢
    obtain ⟨R2, i2, t2, hd2, n⟩ := C105_tilt L u hL fx fy s ρ hx hy hρ R i t h (by rw [hce]; exact hlt)
      (by rw [hce]; exact hs)
    rw [hd] at hd2
    have : t' = t2 := by
      injection hd2 with g1 g2
      injection g2 with g2 g3
      injection g3
    rw [hce] at n
    rw [this]; exact n)
  refine (weighted g1 g2 hN).trans ?_
  have f1 : 5200 * u * K ^ 2 ≤ 1.3 := by linarith
  have f2 : 1111 * u * K * (1 + 5200 * u * K ^ 2) ≤ 1111 * u * K * 2.3 :=
    mul_le_mul_of_nonneg_left (by linarith) (by positivity)
  linarith [mul_nonneg hu hK0.le]

/-! ## From the grid point to the disk -/

/-- A point is on a copy of a sheared ellipse. -/
theorem on_copy (fx fy s ρ x y : ℝ) (hx : 0 < fx) (hy : 0 < fy) (hρ : 0 < ρ)
    (hE : 0 < ((x + s * y) / (fx * ρ)) ^ 2 + (y / (fy * ρ)) ^ 2) :
    ∃ l θ, l ^ 2 = ((x + s * y) / (fx * ρ)) ^ 2 + (y / (fy * ρ)) ^ 2 ∧
      (x, y) = (l * (sheared fx fy s ρ θ).1, l * (sheared fx fy s ρ θ).2) := by
  generalize hEe : ((x + s * y) / (fx * ρ)) ^ 2 + (y / (fy * ρ)) ^ 2 = E at hE
  have hl := sqrt_pos.2 hE
  have hl2 : √E ^ 2 = E := sq_sqrt hE.le
  obtain ⟨θ, h1, h2⟩ := exists_angle ((x + s * y) / (fx * ρ) / √E) (y / (fy * ρ) / √E) (by
    rw [div_pow _ √E, div_pow _ √E, ← add_div, hEe, hl2, div_self hE.ne'])
  refine ⟨√E, θ, hl2, ?_⟩
  unfold sheared
  simp only
  rw [h1, h2]
  refine Prod.ext ?_ ?_
  · simp only; field_simp; ring
  · simp only; field_simp

theorem product_near {a b x y z w : ℝ} (hy : 0 < y) (hw : 0 < w) (h1 : RelNear a x y) (h2 : RelNear b z w)
    (ha : 0 ≤ a) : |x * z / (y * w) - 1| ≤ a + b + a * b := by
  have h1' : |x - y| ≤ a * |y| := h1
  have h2' : |z - w| ≤ b * |w| := h2
  rw [abs_of_pos hy] at h1'
  rw [abs_of_pos hw] at h2'
  have hyw : 0 < y * w := mul_pos hy hw
  rw [div_sub_one hyw.ne', abs_div, abs_of_pos hyw, div_le_iff₀ hyw,
    show x * z - y * w = (x - y) * (z - w) + (x - y) * w + y * (z - w) by ring]
  refine (abs_add_le _ _).trans ((add_le_add (abs_add_le _ _) le_rfl).trans ?_)
  rw [abs_mul, abs_mul, abs_mul, abs_of_pos hy, abs_of_pos hw]
  have k1 : |x - y| * |z - w| ≤ a * y * (b * w) := mul_le_mul h1' h2' (abs_nonneg _) (by positivity)
  have k2 := mul_le_mul_of_nonneg_right h1' hw.le
  have k3 := mul_le_mul_of_nonneg_left h2' hy.le
  linarith

/-- The ends of the eclipse are near the ellipse with the computed parameters. -/
theorem ends_near {dx dy fx fy s' fx' ρ' u κ e : ℝ} (h : dy ≠ 0 ∨ dx = 0) (hx : 0 < fx) (hy : 0 < fy)
    (hE : Eclipse dy fx fy) (hu : 0 ≤ u) (hκ : 1 ≤ κ) (hw : 1000 * u * κ ≤ 1) (hdx : 100 * u * |dx| ≤ 1)
    (n1 : RelNear (34 * u * κ) fx' fx) (n2 : RelNear u s' (shearOf dx dy))
    (n3 : RelNear u ρ' √(1 / 4 + dy ^ 2)) (he : e = 1 / 2 ∨ e = -1 / 2) :
    |((e - dx + s' * -dy) / (fx' * ρ')) ^ 2 + (-dy / (fy * ρ')) ^ 2 - 1| ≤ 101 * u * κ + 5 * u * |dx| := by
  have hρ : 0 < √(1 / 4 + dy ^ 2) := sqrt_pos.2 (by positivity)
  have hρ2 : √(1 / 4 + dy ^ 2) ^ 2 = 1 / 4 + dy ^ 2 := sq_sqrt (by positivity)
  generalize √(1 / 4 + dy ^ 2) = ρ at *
  have huκ : u ≤ u * κ := by nlinarith
  have he2 : e ^ 2 = 1 / 4 := by rcases he with rfl | rfl <;> norm_num
  have he0 : e ≠ 0 := by rcases he with rfl | rfl <;> norm_num
  have hea : |e| = 1 / 2 := by rcases he with rfl | rfl <;> norm_num [abs_of_pos, abs_of_neg]
  have hs := shearOf_mul dx dy h
  have hx' := n1.pos hx (by linarith)
  have hρ' := n3.pos hρ (by linarith)
  -- the exact ellipse
  have hone : (e / (fx * ρ)) ^ 2 + (dy / (fy * ρ)) ^ 2 = 1 := by
    rw [div_pow, div_pow, mul_pow, mul_pow, he2, hρ2]
    have : (1 / 4 + dy ^ 2 : ℝ) ≠ 0 := by positivity
    unfold Eclipse at hE
    field_simp
    linarith
  -- the factors
  obtain ⟨η, hη⟩ : ∃ η, η = -((s' - shearOf dx dy) * dy) / e := ⟨_, rfl⟩
  have hη1 : |η| ≤ 2 * u * |dx| := by
    have g : |s' - shearOf dx dy| ≤ u * |shearOf dx dy| := n2
    rw [hη, abs_div, abs_neg, abs_mul, hea, div_le_iff₀ (by norm_num)]
    have := mul_le_mul_of_nonneg_right g (abs_nonneg dy)
    rw [mul_assoc, show |shearOf dx dy| * |dy| = |dx| by rw [← abs_mul, hs, abs_neg]] at this
    linarith
  have e1 : e - dx + s' * -dy = e * (1 + η) := by
    rw [hη]; field_simp; linear_combination -hs
  have e2 : ((e - dx + s' * -dy) / (fx' * ρ')) ^ 2 =
      (1 + η) ^ 2 * (1 / (fx' * ρ' / (fx * ρ))) ^ 2 * (e / (fx * ρ)) ^ 2 := by
    rw [e1]; field_simp
  have e3 : (-dy / (fy * ρ')) ^ 2 = (1 / (ρ' / ρ)) ^ 2 * (dy / (fy * ρ)) ^ 2 := by
    field_simp
  have g1 : |(1 / (fx' * ρ' / (fx * ρ))) ^ 2 - 1| ≤ 96.2 * u * κ := by
    refine (inv_sq_near (ε := 36 * u * κ) ((product_near hx hρ n1 n3 (by positivity)).trans ?_)
      (by linarith)).trans (by linarith [mul_nonneg hu (by linarith : 0 ≤ κ)])
    have : 34 * u * κ * u ≤ 1 * u := mul_le_mul_of_nonneg_right (by linarith) hu
    linarith
  have g2 : |(1 / (ρ' / ρ)) ^ 2 - 1| ≤ 2.67 * u := by
    refine inv_sq_near ?_ (by linarith)
    have g : |ρ' - ρ| ≤ u * |ρ| := n3
    rw [abs_of_pos hρ] at g
    rw [div_sub_one hρ.ne', abs_div, abs_of_pos hρ, div_le_iff₀ hρ]; exact g
  have hd0 := abs_nonneg dx
  have hud : 0 ≤ u * |dx| := mul_nonneg hu hd0
  have g3 : |(1 + η) ^ 2 - 1| ≤ 4.04 * u * |dx| := by
    rw [show (1 + η) ^ 2 - 1 = η * (2 + η) by ring, abs_mul]
    have k1 : |2 + η| ≤ 2.02 := by
      refine (abs_add_le _ _).trans ?_
      rw [abs_of_pos (by norm_num : (0 : ℝ) < 2)]
      linarith
    have := mul_le_mul hη1 k1 (abs_nonneg _) (by positivity)
    linarith
  have g4 : |(1 + η) ^ 2 * (1 / (fx' * ρ' / (fx * ρ))) ^ 2 - 1| ≤ 101 * u * κ + 5 * u * |dx| := by
    generalize (1 + η) ^ 2 = P at *
    generalize (1 / (fx' * ρ' / (fx * ρ))) ^ 2 = Q at *
    rw [show P * Q - 1 = (P - 1) * (Q - 1) + (P - 1) + (Q - 1) by ring]
    refine (abs_add_le _ _).trans ((add_le_add (abs_add_le _ _) le_rfl).trans ?_)
    rw [abs_mul]
    have k1 : |P - 1| * |Q - 1| ≤ 0.0404 * (96.2 * u * κ) :=
      mul_le_mul (by linarith) g1 (abs_nonneg _) (by norm_num)
    linarith [mul_nonneg hu (by linarith : 0 ≤ κ)]
  rw [e2, e3]
  have g5 : |(1 / (ρ' / ρ)) ^ 2 - 1| ≤ 101 * u * κ + 5 * u * |dx| := by linarith
  have := weighted (N := 0) g4 g5 (by rw [hone]; simp)
  linarith

/-- **C108** The edge of the disk that is computed in floating point for a grid point and a scale factor, all
the way from their values, passes through the start and the end of the eclipse up to the rounding error
shown. -/
theorem C108_ends (L : FloatLib ℝ) (u : ℝ) (hL : Accurate L u) (dx dy fy fx R i t : ℝ)
    (h : dy ≠ 0 ∨ dx = 0) (hy : 0 < fy) (hfx : Geometry.determineFx (.fin dy) (.fin fy) = .fin fx)
    (hdisk : Geometry.diskParameters (Geometry.determineFx (.fin dy) (.fin fy)) (.fin fy)
      (Geometry.shear (.fin dx) (.fin dy)) (Geometry.circularRadius (.fin dy)) = (.fin R, .fin i, .fin t))
    (hw : 1000 * u * width dy fx * (1 / cos (rad i)) ≤ 1) (hi : 5000 * u * (1 / cos (rad i)) ^ 2 ≤ 1)
    (hdx : 100 * u * |dx| ≤ 1) :
    ∃ R' i' t', GeometryRounded.diskAt L (.fin dx) (.fin dy) (.fin fy) = (.fin R', .fin i', .fin t') ∧
      0 < R' ∧ 0 < cos (rad i') ∧ ∀ e : ℝ, e = 1 / 2 ∨ e = -1 / 2 →
        |level R' (R' * cos (rad i')) (rad t') (e - dx, -dy) - 1| ≤
          u * (101 * width dy fx + 5 * |dx| + 12000 * (1 / cos (rad i)) ^ 2) := by
  have hu := hL.nonneg
  obtain ⟨hx, hκ, -⟩ := width_props hy hfx
  have hE := ((C54_fx dy fy hy).2.2 fx hx).1 hfx
  have hρ : 0 < √(1 / 4 + dy ^ 2) := sqrt_pos.2 (by positivity)
  rw [hfx, shear_ok dx dy h, circularRadius_fin] at hdisk
  obtain ⟨a0, i0, t0, hd0, hG, hS, ha0, -, -⟩ := C52_axes fx fy (shearOf dx dy) _ hx hy hρ
  rw [hd0] at hdisk
  obtain ⟨rfl, rfl, rfl⟩ : a0 = R ∧ i0 = i ∧ t0 = t := by
    injection hdisk with g1 g2
    injection g2 with g2 g3
    injection g1 with g1
    injection g2 with g2
    injection g3 with g3
    exact ⟨g1, g2, g3⟩
  have hc : 0 < cos (rad i0) := by
    obtain ⟨⟨θ, hθ⟩, -⟩ := hS
    have := size_pos_sheared fx fy (shearOf dx dy) _ θ hx hy hρ
    simp only at hθ
    rw [hθ] at this
    exact pos_of_mul_pos_right this ha0.le
  have hc1 := cos_le_one (rad i0)
  generalize hce : cos (rad i0) = c at *
  generalize hK : 1 / c = K at *
  have hK1 : 1 ≤ K := by rw [← hK]; exact (one_le_div hc).2 hc1
  have hK0 : 0 < K := by linarith
  have hKc : K * c = 1 := by rw [← hK]; field_simp
  generalize hκe : width dy fx = κ at *
  have hκ0 : 0 < κ := by linarith
  have huκ : u ≤ u * κ := by nlinarith
  have huκ0 : 0 ≤ u * κ := by positivity
  have huκK : u * κ ≤ u * κ * K := by nlinarith
  have hw1 : 1000 * u * κ ≤ 1 := by linarith
  obtain ⟨fx', e1, n1, -, hx'⟩ := C104_fx_partial L u hL dy fy fx hy hfx (by rw [hκe]; linarith)
  rw [hκe] at n1
  obtain ⟨s', e2, n2⟩ := shear_near hL dx dy h
  have n3 : RelNear u (L.hypot (1 / 2) dy) √(1 / 4 + dy ^ 2) := by
    have := hL.hypot (1 / 2) dy
    rwa [show (1 / 2 : ℝ) ^ 2 + dy ^ 2 = 1 / 4 + dy ^ 2 by norm_num] at this
  have hρ' : 0 < L.hypot (1 / 2) dy := n3.pos hρ (by linarith)
  -- the exact disk of the computed parameters
  obtain ⟨a1, i1, t1, hd1, hG', hS', ha1, -, -⟩ := C52_axes fx' fy s' _ hx' hy hρ'
  have hR1 : a0 = norm2 (sheared fx fy (shearOf dx dy) √(1 / 4 + dy ^ 2)
      (vertex fx fy (shearOf dx dy) + π / 2)) := by
    refine hG.unique ⟨⟨_, rfl⟩, ?_⟩
    rintro _ ⟨θ, rfl⟩; exact (size_bounds fx fy (shearOf dx dy) _ θ).2
  have near := sheared_near hx hy hρ hu (by linarith) (a := 34 * u * κ) (by positivity) (by linarith) n1 n2 n3 hR1
  have near' : ∀ θ, |norm2 (sheared fx' fy s' (L.hypot (1 / 2) dy) θ) -
      norm2 (sheared fx fy (shearOf dx dy) √(1 / 4 + dy ^ 2) θ)| ≤ 40 * u * κ * a0 := fun θ =>
    (near θ).trans (mul_le_mul_of_nonneg_right (by linarith) ha0.le)
  have m1 := sup_near near' hG' hG
  have m2 := inf_near near' hS' hS
  have b1 := ratio_near' (by positivity) (by linarith) (mul_pos ha0 hc).le
    (by have := mul_le_mul_of_nonneg_left hc1 ha0.le; linarith) ha0 m2 m1
  rw [mul_div_cancel_left₀ _ ha0.ne', mul_div_cancel_left₀ _ ha1.ne'] at b1
  have hc' : 0.916 * c ≤ cos (rad i1) := by
    have q1 := (abs_le.1 b1).1
    have q2 : 1000 * (u * κ) ≤ c := by
      have := mul_le_mul_of_nonneg_right hw hc.le
      rw [show 1000 * u * κ * K * c = 1000 * (u * κ) * (K * c) by ring, hKc] at this
      linarith
    linarith
  have hc0' : 0 < cos (rad i1) := by linarith
  have hK' : (1 / cos (rad i1)) ^ 2 ≤ 1.2 * K ^ 2 := by
    have q1 : 1 / cos (rad i1) ≤ K / 0.916 := by
      rw [div_le_div_iff₀ hc0' (by norm_num)]
      have := mul_le_mul_of_nonneg_left hc' hK0.le
      linarith
    have q2 := pow_le_pow_left₀ (by positivity) q1 2
    rw [div_pow K] at q2
    refine q2.trans ?_
    rw [div_le_iff₀ (by norm_num)]
    nlinarith [sq_nonneg K]
  have huK' : u * (1 / cos (rad i1)) ^ 2 ≤ u * (1.2 * K ^ 2) := mul_le_mul_of_nonneg_left hK' hu
  have huK0 : 0 ≤ u * K ^ 2 := by positivity
  obtain ⟨R', i', t', hd, hR', hci, hlev⟩ := C108_edge L u hL fx' fy s' _ hx' hy hρ' _ _ _ hd1 (by linarith)
  refine ⟨R', i', t', ?_, hR', hci, fun e he => ?_⟩
  · unfold GeometryRounded.diskAt
    rw [e1, e2, ← hd]
    rfl
  · have hl := ends_near h hx hy hE hu hκ hw1 hdx n1 n2 n3 he
    have hud : 0 ≤ u * |dx| := mul_nonneg hu (abs_nonneg dx)
    obtain ⟨l, θ, hl2, hp⟩ := on_copy fx' fy s' _ (e - dx) (-dy) hx' hy hρ' (by
      have := (abs_le.1 hl).1
      linarith)
    rw [← hl2] at hl
    rw [hp, level_scale]
    have q := hlev θ
    generalize level R' (R' * cos (rad i')) (rad t') (sheared fx' fy s' (L.hypot (1 / 2) dy) θ) = V at *
    have hl3 : l ^ 2 ≤ 1.16 := by have := (abs_le.1 hl).2; linarith
    rw [show l ^ 2 * V - 1 = l ^ 2 * (V - 1) + (l ^ 2 - 1) by ring]
    refine (abs_add_le _ _).trans ?_
    rw [abs_mul, abs_of_nonneg (sq_nonneg l)]
    have r1 : l ^ 2 * |V - 1| ≤ 1.16 * (8000 * u * (1 / cos (rad i1)) ^ 2) :=
      mul_le_mul hl3 q (abs_nonneg _) (by norm_num)
    linarith

/-- **C108** In binary64 with functions accurate to 2^-50: for disks that are stretched along y, centred at
most 100 eclipse durations from the eclipse in either direction and not more inclined than to a hundredth of
their diameter, the edge passes through both ends of the eclipse to 2 parts in 10^7. -/
theorem C108_double (L : FloatLib ℝ) (u : ℝ) (hL : Accurate L u) (hu : u ≤ 1 / 2 ^ 50) (dx dy fy R i t : ℝ)
    (h : dy ≠ 0 ∨ dx = 0) (hdx : |dx| ≤ 100) (hdy : |dy| ≤ 100) (hy : 1 ≤ fy)
    (hdisk : Geometry.diskParameters (Geometry.determineFx (.fin dy) (.fin fy)) (.fin fy)
      (Geometry.shear (.fin dx) (.fin dy)) (Geometry.circularRadius (.fin dy)) = (.fin R, .fin i, .fin t))
    (hi : 1 / 100 ≤ cos (rad i)) :
    ∃ R' i' t', GeometryRounded.diskAt L (.fin dx) (.fin dy) (.fin fy) = (.fin R', .fin i', .fin t') ∧
      0 < R' ∧ 0 < cos (rad i') ∧ ∀ e : ℝ, e = 1 / 2 ∨ e = -1 / 2 →
        |level R' (R' * cos (rad i')) (rad t') (e - dx, -dy) - 1| ≤ 2 / 10 ^ 7 := by
  have hu0 := hL.nonneg
  have hd : 0 < fy ^ 2 * (1 + 4 * dy ^ 2) - 4 * dy ^ 2 := by
    have : 1 ≤ fy ^ 2 := one_le_pow₀ hy
    have := mul_le_mul_of_nonneg_right this (show 0 ≤ 1 + 4 * dy ^ 2 by positivity)
    linarith
  have hfx := determineFx_fin dy fy hd
  obtain ⟨hx, h1, h2⟩ := width_props (by linarith) hfx
  have h3 := h2 hy
  have h4 : dy ^ 2 ≤ 100 ^ 2 := by rw [← sq_abs]; exact pow_le_pow_left₀ (abs_nonneg dy) hdy 2
  generalize fy / √(fy ^ 2 * (1 + 4 * dy ^ 2) - 4 * dy ^ 2) = fx at *
  have h5 : width dy fx ≤ 40001 := by linarith
  have h6 : u * width dy fx ≤ 1 / 2 ^ 50 * 40001 := mul_le_mul hu h5 (by linarith) (by positivity)
  have hc : 0 < cos (rad i) := by linarith
  have hK : 1 / cos (rad i) ≤ 100 := by rw [div_le_iff₀ hc]; linarith
  have hK0 : 0 < 1 / cos (rad i) := by positivity
  obtain ⟨K, hKe⟩ : ∃ K, K = 1 / cos (rad i) := ⟨_, rfl⟩
  rw [← hKe] at hK hK0
  have hK2 : K ^ 2 ≤ 100 ^ 2 := pow_le_pow_left₀ hK0.le hK 2
  have h7 : u * width dy fx * K ≤ 1 / 2 ^ 50 * 40001 * 100 := mul_le_mul h6 hK hK0.le (by positivity)
  have h8 : u * K ^ 2 ≤ 1 / 2 ^ 50 * 100 ^ 2 := mul_le_mul hu hK2 (by positivity) (by positivity)
  have h9 : u * |dx| ≤ 1 / 2 ^ 50 * 100 := mul_le_mul hu hdx (abs_nonneg _) (by positivity)
  obtain ⟨R', i', t', k1, k2, k3, k4⟩ := C108_ends L u hL dx dy fy fx R i t h (by linarith) hfx hdisk
    (by rw [← hKe]; norm_num at h7 ⊢; linarith) (by rw [← hKe]; norm_num at h8 ⊢; linarith)
    (by norm_num at h9 ⊢; linarith)
  refine ⟨R', i', t', k1, k2, k3, fun e he => (k4 e he).trans ?_⟩
  rw [← hKe]
  norm_num at h6 h8 h9 ⊢
  linarith

/-! ## A case -/

/-- The disk 3 eclipse durations below the star path and 1 to the side, with `fy = 2`: in binary64, its edge
passes through both ends of the eclipse. -/
example : ∃ R' i' t', GeometryRounded.diskAt .double (.fin 1) (.fin 3) (.fin 2) = (.fin R', .fin i', .fin t') ∧
    0 < R' ∧ 0 < cos (rad i') ∧ ∀ e : ℝ, e = 1 / 2 ∨ e = -1 / 2 →
      |level R' (R' * cos (rad i')) (rad t') (e - 1, -3) - 1| ≤ 2 / 10 ^ 7 := by
  have h : (0 : ℝ) < 2 ^ 2 * (1 + 4 * 3 ^ 2) - 4 * 3 ^ 2 := by norm_num
  have hfx := determineFx_fin 3 2 h
  obtain ⟨hx, -, -⟩ := width_props (dy := 3) (fy := 2) (by norm_num) hfx
  have hx2 : (2 / √(2 ^ 2 * (1 + 4 * 3 ^ 2) - 4 * 3 ^ 2) : ℝ) ^ 2 = 1 / 28 := by
    rw [div_pow, sq_sqrt h.le]; norm_num
  generalize (2 / √(2 ^ 2 * (1 + 4 * 3 ^ 2) - 4 * 3 ^ 2) : ℝ) = fx at *
  have hs := shear_ok 1 3 (Or.inl (by norm_num))
  have hρ : 0 < √(1 / 4 + 3 ^ 2 : ℝ) := Real.sqrt_pos.2 (by norm_num)
  have hρ2 : √(1 / 4 + 3 ^ 2 : ℝ) ^ 2 = 37 / 4 := by rw [sq_sqrt (by norm_num)]; norm_num
  obtain ⟨R, i, t, hd, ⟨⟨a, ha⟩, -⟩, ⟨⟨b, hb⟩, -⟩, hR, -⟩ := C52_axes fx 2 (shearOf 1 3) √(1 / 4 + 3 ^ 2) hx
    (by norm_num) hρ
  have hd' := hd
  rw [← circularRadius_fin, ← hs, ← hfx] at hd'
  have hsv : shearOf 1 3 = -1 / 3 := by unfold shearOf; norm_num
  -- the sizes
  have hn : ∀ θ, norm2 (sheared fx 2 (shearOf 1 3) √(1 / 4 + 3 ^ 2) θ) ^ 2 =
      37 / 4 * ((fx * cos θ + 2 / 3 * sin θ) ^ 2 + (2 * sin θ) ^ 2) := by
    intro θ
    unfold norm2 sheared
    simp only
    rw [sq_sqrt (by positivity), hsv]
    linear_combination ((fx * cos θ + 2 / 3 * sin θ) ^ 2 + (2 * sin θ) ^ 2) * hρ2
  beta_reduce at ha hb
  have h1 : R ^ 2 ≤ 49 := by
    rw [← ha, hn]
    have := sin_sq_add_cos_sq a
    nlinarith [sq_nonneg (fx * cos a - 2 / 3 * sin a), sq_nonneg (sin a), sq_nonneg (cos a)]
  have h2 : (0.1 : ℝ) ≤ (R * cos (rad i)) ^ 2 := by
    rw [← hb, hn]
    have := sin_sq_add_cos_sq b
    have e1 : (fx * cos b) ^ 2 = 1 / 28 * cos b ^ 2 := by rw [mul_pow, hx2]
    nlinarith [sq_nonneg (fx * cos b * (10 / 11) + sin b), sq_nonneg (sin b), sq_nonneg (cos b),
      sq_nonneg (fx * cos b / 2 + 4 / 3 * sin b)]
  have h3 : 0 < R * cos (rad i) := by
    rw [← hb]; exact size_pos_sheared _ _ _ _ _ hx (by norm_num) hρ
  have h4 : R ≤ 7 := by nlinarith
  have h5 : 0.3 ≤ R * cos (rad i) := by nlinarith
  have h6 : 1 / 100 ≤ cos (rad i) := by nlinarith [pos_of_mul_pos_right h3 hR.le]
  exact C108_double .double _ double_accurate (by norm_num) 1 3 2 R i t (Or.inl (by norm_num))
    (by norm_num) (by norm_num [abs_of_pos]) (by norm_num) hd' h6

end Beyonce
