import Verif.Geometry
import Mathlib.Analysis.Real.Pi.Bounds
import Mathlib.Analysis.SpecialFunctions.Trigonometric.Deriv

/-!
# Properties C51 – C55 and C60: the geometry of the disks, over the real numbers
-/

set_option linter.unusedSectionVars false

namespace Beyonce
namespace Spec
end Spec
open Spec Real

/-- A point of the circle of radius `R` around the origin, stretched by `fx` and `fy` and sheared in x
by `s` (the ellipse of the docstring of `_calculate_xy_from_parameteric_angle`). -/
noncomputable def Spec.sheared (fx fy s R θ : ℝ) : ℝ × ℝ :=
  (fx * (R * cos θ) - s * (fy * (R * sin θ)), fy * (R * sin θ))

/-- A point of the ellipse around the origin with semi-axes `a` and `b`, the first at angle `τ`. -/
noncomputable def Spec.tilted (a b τ φ : ℝ) : ℝ × ℝ :=
  (a * cos φ * cos τ - b * sin φ * sin τ, a * cos φ * sin τ + b * sin φ * cos τ)

/-- The distance from the origin. -/
noncomputable def Spec.norm2 (p : ℝ × ℝ) : ℝ := √(p.1 ^ 2 + p.2 ^ 2)

/-- Degrees to radians. -/
noncomputable def Spec.rad (degrees : ℝ) : ℝ := degrees * (π / 180)

/-! ## Arithmetic of finite numbers -/

namespace XF
variable {K : Type} [Field K] [LinearOrder K]
theorem add_fin (a b : K) : (XF.fin a).add (.fin b) = .fin (a + b) := rfl
theorem sub_fin (a b : K) : (XF.fin a).sub (.fin b) = .fin (a - b) := by
  rw [sub_eq_add_neg]; rfl
theorem mul_fin (a b : K) : (XF.fin a).mul (.fin b) = .fin (a * b) := rfl
theorem neg_fin (a : K) : (XF.fin a).neg = .fin (-a) := rfl
theorem div_fin (a b : K) (h : b ≠ 0) : (XF.fin a).div (.fin b) = .fin (a / b) := by
  simp [XF.div, h]
theorem abs_fin (a : K) : (XF.fin a).abs = .fin |a| := rfl
theorem sq_fin (a : K) : (XF.fin a).sq = .fin (a * a) := rfl
theorem sin_fin (a : ℝ) : (XF.fin a).sin = .fin (Real.sin a) := rfl
theorem cos_fin (a : ℝ) : (XF.fin a).cos = .fin (Real.cos a) := rfl
theorem sqrt_fin (a : ℝ) (h : 0 ≤ a) : (XF.fin a).sqrt = .fin √a := by
  simp [XF.sqrt, not_lt.2 h]; rfl
theorem hypot_fin (a b : ℝ) : XF.hypot (.fin a) (.fin b) = .fin √(a * a + b * b) := rfl
theorem pi_eq : (XF.pi : XF ℝ) = .fin π := rfl
theorem arctan2_fin (y x : ℝ) : XF.arctan2 (.fin y) (.fin x) = .fin (Complex.arg ⟨x, y⟩) := rfl
theorem rad2deg_fin (a : ℝ) : (XF.fin a).rad2deg = .fin (a * (180 / π)) := rfl
theorem arccos_fin (a : ℝ) (h : -1 ≤ a) (h' : a ≤ 1) : (XF.fin a).arccos = .fin (Real.arccos a) := by
  simp [XF.arccos, not_lt.2 h, not_lt.2 h']; rfl
end XF

open Geometry

theorem xyAt_fin (fx fy θ s R : ℝ) :
    xyAt (.fin fx) (.fin fy) (.fin θ) (.fin s) (.fin R) =
      (.fin (sheared fx fy s R θ).1, .fin (sheared fx fy s R θ).2) := by
  simp only [xyAt, XF.cos_fin, XF.sin_fin, XF.mul_fin, XF.sub_fin, sheared]

theorem vertexAngles_fin (fx fy s : ℝ) :
    vertexAngles (.fin fx) (.fin fy) (.fin s) =
      (.fin (Complex.arg ⟨(s * s + 1) * (fy * fy) - fx * fx, 2 * fx * fy * s⟩ / 2),
       .fin (Complex.arg ⟨(s * s + 1) * (fy * fy) - fx * fx, 2 * fx * fy * s⟩ / 2 + π / 2)) := by
  simp only [vertexAngles, XF.sq_fin, XF.mul_fin, XF.add_fin, XF.sub_fin, XF.arctan2_fin, XF.pi_eq,
    XF.div_fin _ _ (two_ne_zero (α := ℝ))]
  rw [show (1 / 2 : ℝ) * Complex.arg ⟨(s * s + 1) * (fy * fy) - fx * fx, 2 * fx * fy * s⟩ =
    Complex.arg ⟨(s * s + 1) * (fy * fy) - fx * fx, 2 * fx * fy * s⟩ / 2 by ring]

/-- The first angle of `vertexAngles`. -/
noncomputable def vertex (fx fy s : ℝ) : ℝ :=
  Complex.arg ⟨(s * s + 1) * (fy * fy) - fx * fx, 2 * fx * fy * s⟩ / 2

/-- The length that belongs to the angle. -/
noncomputable def spread (fx fy s : ℝ) : ℝ :=
  ‖(⟨(s * s + 1) * (fy * fy) - fx * fx, 2 * fx * fy * s⟩ : ℂ)‖

theorem spread_cos (fx fy s : ℝ) : spread fx fy s * cos (2 * vertex fx fy s) =
    (s * s + 1) * (fy * fy) - fx * fx := by
  unfold spread vertex
  rw [mul_div_cancel₀ _ (two_ne_zero), Complex.norm_mul_cos_arg]

theorem spread_sin (fx fy s : ℝ) : spread fx fy s * sin (2 * vertex fx fy s) =
    2 * fx * fy * s := by
  unfold spread vertex
  rw [mul_div_cancel₀ _ (two_ne_zero), Complex.norm_mul_sin_arg]

theorem spread_nonneg (fx fy s : ℝ) : 0 ≤ spread fx fy s := norm_nonneg _

/-- The distance from the centre along the ellipse. -/
theorem sheared_sq (fx fy s R θ : ℝ) :
    (sheared fx fy s R θ).1 ^ 2 + (sheared fx fy s R θ).2 ^ 2 =
      R ^ 2 * ((fx ^ 2 + (s ^ 2 + 1) * fy ^ 2) / 2 -
        spread fx fy s / 2 * cos (2 * (θ - vertex fx fy s))) := by
  have h1 := spread_cos fx fy s
  have h2 := spread_sin fx fy s
  rw [mul_sub 2 θ, cos_sub]
  have h3 : spread fx fy s / 2 * (cos (2 * θ) * cos (2 * vertex fx fy s) +
      sin (2 * θ) * sin (2 * vertex fx fy s)) =
      (cos (2 * θ) * (spread fx fy s * cos (2 * vertex fx fy s)) +
      sin (2 * θ) * (spread fx fy s * sin (2 * vertex fx fy s))) / 2 := by ring
  rw [h3, h1, h2, cos_two_mul, sin_two_mul]
  unfold sheared
  have h4 := sin_sq_add_cos_sq θ
  have h5 : cos θ ^ 2 = 1 - sin θ ^ 2 := by linarith
  simp only
  ring_nf
  rw [h5]
  ring

/-- The points at the two angles are at a right angle. -/
theorem sheared_perp (fx fy s R : ℝ) :
    (sheared fx fy s R (vertex fx fy s)).1 * (sheared fx fy s R (vertex fx fy s + π / 2)).1 +
    (sheared fx fy s R (vertex fx fy s)).2 * (sheared fx fy s R (vertex fx fy s + π / 2)).2 = 0 := by
  have h1 := spread_cos fx fy s
  have h2 := spread_sin fx fy s
  have key : ((s * s + 1) * (fy * fy) - fx * fx) * sin (2 * vertex fx fy s) -
      2 * fx * fy * s * cos (2 * vertex fx fy s) = 0 := by
    rw [← h1, ← h2]; ring
  rw [sin_two_mul, cos_two_mul'] at key
  unfold sheared
  simp only [cos_add_pi_div_two, sin_add_pi_div_two]
  linear_combination (R ^ 2 / 2) * key

/-- Every point of the ellipse from the two. -/
theorem sheared_comb (fx fy s R t α : ℝ) :
    sheared fx fy s R (t + α) =
      (cos α * (sheared fx fy s R t).1 + sin α * (sheared fx fy s R (t + π / 2)).1,
       cos α * (sheared fx fy s R t).2 + sin α * (sheared fx fy s R (t + π / 2)).2) := by
  unfold sheared
  simp only [cos_add_pi_div_two, sin_add_pi_div_two]
  simp only [cos_add, sin_add]
  refine Prod.ext ?_ ?_ <;> simp only <;> ring

theorem size_sq (p : ℝ × ℝ) : norm2 p ^ 2 = p.1 ^ 2 + p.2 ^ 2 := by
  unfold norm2; rw [sq_sqrt (by positivity)]

theorem size_nonneg (p : ℝ × ℝ) : 0 ≤ norm2 p := sqrt_nonneg _

theorem size_pos_sheared (fx fy s R θ : ℝ) (hx : 0 < fx) (hy : 0 < fy) (hR : 0 < R) :
    0 < norm2 (sheared fx fy s R θ) := by
  unfold norm2
  apply sqrt_pos.2
  by_contra h
  have g1 := sq_nonneg (sheared fx fy s R θ).1
  have g2 := sq_nonneg (sheared fx fy s R θ).2
  have h1 : (sheared fx fy s R θ).2 = 0 := pow_eq_zero_iff (two_ne_zero) |>.1 (by linarith)
  have h2 : (sheared fx fy s R θ).1 = 0 := pow_eq_zero_iff (two_ne_zero) |>.1 (by linarith)
  unfold sheared at h1 h2
  simp only at h1 h2
  rw [h1, mul_zero, sub_zero] at h2
  have hs : sin θ = 0 := by
    have := mul_pos hy hR
    rcases mul_eq_zero.1 h1 with h | h
    · exact absurd h hy.ne'
    · rcases mul_eq_zero.1 h with h | h
      · exact absurd h hR.ne'
      · exact h
  have hc : cos θ = 0 := by
    rcases mul_eq_zero.1 h2 with h | h
    · exact absurd h hx.ne'
    · rcases mul_eq_zero.1 h with h | h
      · exact absurd h hR.ne'
      · exact h
  have := sin_sq_add_cos_sq θ
  rw [hs, hc] at this
  norm_num at this

/-- The first angle gives the smallest distance, the second the largest. -/
theorem size_bounds (fx fy s R θ : ℝ) :
    norm2 (sheared fx fy s R (vertex fx fy s)) ≤ norm2 (sheared fx fy s R θ) ∧
    norm2 (sheared fx fy s R θ) ≤ norm2 (sheared fx fy s R (vertex fx fy s + π / 2)) := by
  have h0 := spread_nonneg fx fy s
  have hc1 := cos_le_one (2 * (θ - vertex fx fy s))
  have hc2 := neg_one_le_cos (2 * (θ - vertex fx fy s))
  constructor
  · unfold norm2
    apply sqrt_le_sqrt
    rw [sheared_sq, sheared_sq, sub_self, mul_zero, cos_zero]
    apply mul_le_mul_of_nonneg_left _ (sq_nonneg R)
    nlinarith
  · unfold norm2
    apply sqrt_le_sqrt
    rw [sheared_sq, sheared_sq, add_sub_cancel_left, mul_div_cancel₀ _ (two_ne_zero), cos_pi]
    apply mul_le_mul_of_nonneg_left _ (sq_nonneg R)
    nlinarith

/-- The tilt in radians, as computed. -/
noncomputable def tiltRad (fx fy s R : ℝ) : ℝ :=
  let p := sheared fx fy s R (vertex fx fy s)
  let q := sheared fx fy s R (vertex fx fy s + π / 2)
  Complex.arg ⟨p.1, p.2⟩ + if norm2 p < norm2 q then π / 2 else 0

theorem diskParameters_fin (fx fy s R : ℝ) (hx : 0 < fx) (hy : 0 < fy) (hR : 0 < R) :
    diskParameters (.fin fx) (.fin fy) (.fin s) (.fin R) =
      (.fin (norm2 (sheared fx fy s R (vertex fx fy s + π / 2))),
       .fin (Real.arccos (norm2 (sheared fx fy s R (vertex fx fy s)) /
         norm2 (sheared fx fy s R (vertex fx fy s + π / 2))) * (180 / π)),
       .fin (tiltRad fx fy s R * (180 / π))) := by
  have hv : vertexAngles (.fin fx) (.fin fy) (.fin s) =
      (.fin (vertex fx fy s), .fin (vertex fx fy s + π / 2)) := vertexAngles_fin fx fy s
  unfold diskParameters tiltRad
  simp only [hv, xyAt_fin, XF.hypot_fin, XF.arctan2_fin]
  have hs : ∀ p : ℝ × ℝ, √(p.1 * p.1 + p.2 * p.2) = norm2 p := by
    intro p; unfold norm2; rw [sq, sq]
  simp only [hs]
  have hle := (size_bounds fx fy s R (vertex fx fy s)).2
  have hpos := size_pos_sheared fx fy s R (vertex fx fy s) hx hy hR
  generalize hp : sheared fx fy s R (vertex fx fy s) = p at *
  generalize hq : sheared fx fy s R (vertex fx fy s + π / 2) = q at *
  have hmax : XF.maximum (.fin (norm2 p)) (.fin (norm2 q)) = .fin (norm2 q) := by
    unfold XF.maximum
    simp only [XF.isNan_fin, Bool.or_false, Bool.false_eq_true, if_false, XF.lt_fin, decide_eq_true_eq]
    by_cases h : norm2 p < norm2 q
    · rw [if_pos h]
    · rw [if_neg h, le_antisymm hle (not_lt.1 h)]
  have hmin : XF.minimum (.fin (norm2 p)) (.fin (norm2 q)) = .fin (norm2 p) := by
    unfold XF.minimum
    simp only [XF.isNan_fin, Bool.or_false, Bool.false_eq_true, if_false, XF.lt_fin, decide_eq_true_eq]
    rw [if_neg (not_lt.2 hle)]
  have hq0 : 0 < norm2 q := lt_of_lt_of_le hpos hle
  rw [hmax, hmin]
  simp only [XF.mul_fin, XF.isNan_fin, Bool.not_false, Bool.true_and, if_true, XF.lt_fin,
    decide_eq_true_eq, XF.pi_eq, XF.div_fin _ _ (two_ne_zero (α := ℝ)), XF.div_fin _ _ hq0.ne']
  rw [XF.arccos_fin _ (by have : 0 ≤ norm2 p / norm2 q := by positivity
                          linarith) ((div_le_one hq0).2 hle), XF.rad2deg_fin]
  by_cases h : norm2 p < norm2 q
  · rw [if_pos h, if_pos h, XF.add_fin, XF.rad2deg_fin]
  · rw [if_neg h, if_neg h, XF.rad2deg_fin, add_zero]

/-! ## C52 -/

/-- **C52** The computed disk radius is the largest distance from the centre to the sheared ellipse
and the computed radius times the cosine of the computed inclination is the smallest; both are
attained and the inclination lies between 0 and 90 degrees. -/
theorem C52_axes (fx fy s R : ℝ) (hx : 0 < fx) (hy : 0 < fy) (hR : 0 < R) :
    ∃ a i t : ℝ, diskParameters (.fin fx) (.fin fy) (.fin s) (.fin R) = (.fin a, .fin i, .fin t) ∧
      IsGreatest (Set.range fun θ => norm2 (sheared fx fy s R θ)) a ∧
      IsLeast (Set.range fun θ => norm2 (sheared fx fy s R θ)) (a * cos (rad i)) ∧
      0 < a ∧ 0 ≤ i ∧ i < 90 := by
  have hle := (size_bounds fx fy s R (vertex fx fy s)).2
  have hpos := size_pos_sheared fx fy s R (vertex fx fy s) hx hy hR
  have hpos2 := size_pos_sheared fx fy s R (vertex fx fy s + π / 2) hx hy hR
  have hpi := pi_pos
  refine ⟨_, _, _, diskParameters_fin fx fy s R hx hy hR, ⟨⟨_, rfl⟩, ?_⟩, ?_, hpos2, ?_, ?_⟩
  · rintro _ ⟨θ, rfl⟩; exact (size_bounds fx fy s R θ).2
  · have : norm2 (sheared fx fy s R (vertex fx fy s + π / 2)) *
        cos (rad (Real.arccos (norm2 (sheared fx fy s R (vertex fx fy s)) /
          norm2 (sheared fx fy s R (vertex fx fy s + π / 2))) * (180 / π))) =
        norm2 (sheared fx fy s R (vertex fx fy s)) := by
      unfold rad
      rw [mul_assoc, show 180 / π * (π / 180) = 1 by field_simp, mul_one,
        cos_arccos (by have : 0 ≤ norm2 (sheared fx fy s R (vertex fx fy s)) /
                          norm2 (sheared fx fy s R (vertex fx fy s + π / 2)) := by positivity
                       linarith) ((div_le_one hpos2).2 hle)]
      exact mul_div_cancel₀ _ hpos2.ne'
    rw [this]
    refine ⟨⟨_, rfl⟩, ?_⟩
    rintro _ ⟨θ, rfl⟩; exact (size_bounds fx fy s R θ).1
  · have := arccos_nonneg (norm2 (sheared fx fy s R (vertex fx fy s)) /
          norm2 (sheared fx fy s R (vertex fx fy s + π / 2)))
    positivity
  · have h1 : Real.arccos (norm2 (sheared fx fy s R (vertex fx fy s)) /
          norm2 (sheared fx fy s R (vertex fx fy s + π / 2))) < π / 2 :=
      arccos_lt_pi_div_two.2 (by positivity)
    calc _ < π / 2 * (180 / π) := by
          apply mul_lt_mul_of_pos_right h1; positivity
      _ = 90 := by field_simp; norm_num

/-- The unit circle (fx = fy = 1, no shear) is a face-on disk of that radius. -/
example : ∃ a i t : ℝ, diskParameters (.fin 1) (.fin 1) (.fin 0) (.fin 1) = (.fin a, .fin i, .fin t) ∧
    IsGreatest (Set.range fun θ => norm2 (sheared 1 1 0 1 θ)) a :=
  let ⟨a, i, t, h, h', _⟩ := C52_axes 1 1 0 1 one_pos one_pos one_pos
  ⟨a, i, t, h, h'⟩

/-! ## C53 -/

/-- The circle of angles: a point with coordinates on the unit circle has an angle. -/
theorem exists_angle (c d : ℝ) (h : c ^ 2 + d ^ 2 = 1) : ∃ θ, cos θ = c ∧ sin θ = d := by
  have hn : ‖(⟨c, d⟩ : ℂ)‖ = 1 := by
    rw [Complex.norm_eq_sqrt_sq_add_sq]
    simp only [h, sqrt_one]
  refine ⟨Complex.arg ⟨c, d⟩, ?_, ?_⟩
  · have := Complex.norm_mul_cos_arg ⟨c, d⟩
    rwa [hn, one_mul] at this
  · have := Complex.norm_mul_sin_arg ⟨c, d⟩
    rwa [hn, one_mul] at this

/-- The sheared ellipse is the ellipse with its computed axes and tilt. -/
theorem sheared_eq_tilted (fx fy s R : ℝ) (hx : 0 < fx) (hy : 0 < fy) (hR : 0 < R) :
    Set.range (sheared fx fy s R) =
      Set.range (tilted (norm2 (sheared fx fy s R (vertex fx fy s + π / 2)))
        (norm2 (sheared fx fy s R (vertex fx fy s))) (tiltRad fx fy s R)) := by
  have hle := (size_bounds fx fy s R (vertex fx fy s)).2
  have hb := size_pos_sheared fx fy s R (vertex fx fy s) hx hy hR
  have hperp := sheared_perp fx fy s R
  have hcomb := sheared_comb fx fy s R (vertex fx fy s)
  unfold tiltRad
  simp only
  generalize hp : sheared fx fy s R (vertex fx fy s) = p at *
  generalize hq : sheared fx fy s R (vertex fx fy s + π / 2) = q at *
  -- the first point in polar coordinates
  have hnorm : ‖(⟨p.1, p.2⟩ : ℂ)‖ = norm2 p := by
    rw [Complex.norm_eq_sqrt_sq_add_sq]; rfl
  have hp1 : norm2 p * cos (Complex.arg ⟨p.1, p.2⟩) = p.1 := by
    rw [← hnorm]; exact Complex.norm_mul_cos_arg ⟨p.1, p.2⟩
  have hp2 : norm2 p * sin (Complex.arg ⟨p.1, p.2⟩) = p.2 := by
    rw [← hnorm]; exact Complex.norm_mul_sin_arg ⟨p.1, p.2⟩
  generalize Complex.arg ⟨p.1, p.2⟩ = t at *
  -- the second one at a right angle
  have hunit := sin_sq_add_cos_sq t
  have hperp' : cos t * q.1 + sin t * q.2 = 0 := by
    rw [← hp1, ← hp2] at hperp
    have : norm2 p * (cos t * q.1 + sin t * q.2) = 0 := by linarith
    exact (mul_eq_zero.1 this).resolve_left hb.ne'
  obtain ⟨ε, hε, hq1, hq2⟩ : ∃ ε : ℝ, (ε = 1 ∨ ε = -1) ∧ q.1 = -(ε * norm2 q * sin t) ∧
      q.2 = ε * norm2 q * cos t := by
    set k := cos t * q.2 - sin t * q.1 with hk
    have e1 : q.1 = -(k * sin t) := by rw [hk]; linear_combination cos t * hperp' - q.1 * hunit
    have e2 : q.2 = k * cos t := by rw [hk]; linear_combination sin t * hperp' - q.2 * hunit
    have hk2 : k ^ 2 = norm2 q ^ 2 := by
      rw [size_sq, e1, e2]; linear_combination -(k ^ 2) * hunit
    rcases sq_eq_sq_iff_eq_or_eq_neg.1 hk2 with h | h
    · exact ⟨1, Or.inl rfl, by rw [e1, h]; ring, by rw [e2, h]; ring⟩
    · exact ⟨-1, Or.inr rfl, by rw [e1, h]; ring, by rw [e2, h]; ring⟩
  have hε2 : ε ^ 2 = 1 := by rcases hε with rfl | rfl <;> norm_num
  by_cases hlt : norm2 p < norm2 q
  · rw [if_pos hlt]
    -- φ is minus or plus the angle less a right angle
    have key : ∀ α φ : ℝ, cos φ = ε * sin α → sin φ = -cos α →
        sheared fx fy s R (vertex fx fy s + α) = tilted (norm2 q) (norm2 p) (t + π / 2) φ := by
      intro α φ h1 h2
      rw [hcomb]
      unfold tilted
      rw [h1, h2, cos_add_pi_div_two, sin_add_pi_div_two, hq1, hq2, ← hp1, ← hp2]
      refine Prod.ext ?_ ?_ <;> simp only <;> ring
    ext r
    constructor
    · rintro ⟨θ, rfl⟩
      obtain ⟨φ, h1, h2⟩ := exists_angle (ε * sin (θ - vertex fx fy s))
        (-cos (θ - vertex fx fy s)) (by
          have := sin_sq_add_cos_sq (θ - vertex fx fy s)
          rw [mul_pow, hε2]; linarith)
      refine ⟨φ, ?_⟩
      rw [← key _ _ h1 h2]
      congr 1; ring
    · rintro ⟨φ, rfl⟩
      obtain ⟨α, h1, h2⟩ := exists_angle (-sin φ) (ε * cos φ) (by
          have := sin_sq_add_cos_sq φ
          rw [mul_pow, hε2]; linarith)
      refine ⟨vertex fx fy s + α, key α φ ?_ ?_⟩
      · rw [h2, ← mul_assoc, ← sq, hε2, one_mul]
      · rw [h1, neg_neg]
  · rw [if_neg hlt, add_zero]
    have hpq : norm2 p = norm2 q := le_antisymm hle (not_lt.1 hlt)
    have key : ∀ α φ : ℝ, cos φ = cos α → sin φ = ε * sin α →
        sheared fx fy s R (vertex fx fy s + α) = tilted (norm2 q) (norm2 p) t φ := by
      intro α φ h1 h2
      rw [hcomb]
      unfold tilted
      rw [h1, h2, hq1, hq2, ← hp1, ← hp2, hpq]
      refine Prod.ext ?_ ?_ <;> simp only <;> ring
    ext r
    constructor
    · rintro ⟨θ, rfl⟩
      obtain ⟨φ, h1, h2⟩ := exists_angle (cos (θ - vertex fx fy s))
        (ε * sin (θ - vertex fx fy s)) (by
          have := sin_sq_add_cos_sq (θ - vertex fx fy s)
          rw [mul_pow, hε2]; linarith)
      refine ⟨φ, ?_⟩
      rw [← key _ _ h1 h2]
      congr 1; ring
    · rintro ⟨φ, rfl⟩
      obtain ⟨α, h1, h2⟩ := exists_angle (cos φ) (ε * sin φ) (by
          have := sin_sq_add_cos_sq φ
          rw [mul_pow, hε2]; linarith)
      refine ⟨vertex fx fy s + α, key α φ h1.symm ?_⟩
      rw [h2, ← mul_assoc, ← sq, hε2, one_mul]

theorem rad_deg (x : ℝ) : rad (x * (180 / π)) = x := by
  have := pi_pos
  unfold rad
  field_simp

/-- **C53** The ellipse with the computed radius as semi-major axis at the computed tilt, and the
radius times the cosine of the computed inclination as semi-minor axis, is the sheared ellipse. -/
theorem C53_same_ellipse (fx fy s R : ℝ) (hx : 0 < fx) (hy : 0 < fy) (hR : 0 < R) :
    ∃ a i t : ℝ, diskParameters (.fin fx) (.fin fy) (.fin s) (.fin R) = (.fin a, .fin i, .fin t) ∧
      Set.range (sheared fx fy s R) = Set.range (tilted a (a * cos (rad i)) (rad t)) := by
  have hle := (size_bounds fx fy s R (vertex fx fy s)).2
  have hpos := size_pos_sheared fx fy s R (vertex fx fy s) hx hy hR
  have hpos2 := size_pos_sheared fx fy s R (vertex fx fy s + π / 2) hx hy hR
  refine ⟨_, _, _, diskParameters_fin fx fy s R hx hy hR, ?_⟩
  rw [rad_deg, rad_deg, cos_arccos (by
      have : 0 ≤ norm2 (sheared fx fy s R (vertex fx fy s)) /
        norm2 (sheared fx fy s R (vertex fx fy s + π / 2)) := by positivity
      linarith) ((div_le_one hpos2).2 hle), mul_div_cancel₀ _ hpos2.ne']
  exact sheared_eq_tilted fx fy s R hx hy hR

/-! ## C51 and C54: the scale factors -/

/-- The relation between the scale factors of an ellipse through both end points of the eclipse. -/
def Spec.Eclipse (dy fx fy : ℝ) : Prop :=
  fy ^ 2 + 4 * dy ^ 2 * fx ^ 2 = (1 + 4 * dy ^ 2) * fx ^ 2 * fy ^ 2

/-- The curve that a grid point with these scale factors describes, around its centre. -/
def Spec.curve (dx dy fx fy : ℝ) : Set (ℝ × ℝ) :=
  {q | ∃ (s R θ x y : ℝ), shear (.fin dx) (.fin dy) = .fin s ∧ circularRadius (.fin dy) = .fin R ∧
    xyAt (.fin fx) (.fin fy) (.fin θ) (.fin s) (.fin R) = (.fin x, .fin y) ∧ q = (dx + x, dy + y)}

theorem shear_fin (dx dy : ℝ) (h : dy ≠ 0) : shear (.fin dx) (.fin dy) = .fin (-dx / dy) := by
  unfold shear
  simp only [XF.eqb_fin, h, decide_false, Bool.not_false, if_true, Bool.false_and,
    Bool.false_eq_true, if_false, XF.neg_fin]
  exact XF.div_fin _ _ h

theorem shear_origin : shear (.fin (0 : ℝ)) (.fin 0) = .fin 0 := by
  simp [shear, XF.eqb_fin]

theorem shear_axis (dx : ℝ) (h : dx ≠ 0) : shear (.fin dx) (.fin (0 : ℝ)) = .nan := by
  simp [shear, XF.eqb_fin, h]

theorem circularRadius_fin (dy : ℝ) :
    circularRadius (.fin dy) = .fin √(1 / 4 + dy ^ 2) := by
  unfold circularRadius
  rw [XF.hypot_fin]
  congr 2; ring

/-- The shear of a grid point that has one. -/
noncomputable def shearOf (dx dy : ℝ) : ℝ := if dy = 0 then 0 else -dx / dy

theorem shear_ok (dx dy : ℝ) (h : dy ≠ 0 ∨ dx = 0) :
    shear (.fin dx) (.fin dy) = .fin (shearOf dx dy) := by
  unfold shearOf
  by_cases hy : dy = 0
  · rw [if_pos hy, hy, h.resolve_left (fun h => h hy)]; exact shear_origin
  · rw [if_neg hy]; exact shear_fin dx dy hy

theorem shearOf_mul (dx dy : ℝ) (h : dy ≠ 0 ∨ dx = 0) : shearOf dx dy * dy = -dx := by
  unfold shearOf
  by_cases hy : dy = 0
  · rw [if_pos hy, h.resolve_left (fun h => h hy)]; simp
  · rw [if_neg hy]; field_simp

/-- **C51** Every ellipse of the grid whose scale factors satisfy the relation passes through the
start and the end of the eclipse, (±1/2, 0). -/
theorem C51_through_ends (dx dy fx fy : ℝ) (h : dy ≠ 0 ∨ dx = 0) (hx : 0 < fx) (hy : 0 < fy)
    (he : Eclipse dy fx fy) :
    ((1 / 2 : ℝ), (0 : ℝ)) ∈ curve dx dy fx fy ∧ ((-1 / 2 : ℝ), (0 : ℝ)) ∈ curve dx dy fx fy := by
  have hR : 0 < √(1 / 4 + dy ^ 2) := sqrt_pos.2 (by positivity)
  have hR2 : √(1 / 4 + dy ^ 2) ^ 2 = 1 / 4 + dy ^ 2 := sq_sqrt (by positivity)
  set R := √(1 / 4 + dy ^ 2) with hRd
  have hs := shearOf_mul dx dy h
  have key : ∀ e : ℝ, e ^ 2 = 1 / 4 → ((e, 0) : ℝ × ℝ) ∈ curve dx dy fx fy := by
    intro e he2
    obtain ⟨θ, h1, h2⟩ := exists_angle (e / (fx * R)) (-dy / (fy * R)) (by
      rw [div_pow, div_pow, mul_pow, mul_pow, he2, neg_sq, hR2]
      have : (1 / 4 + dy ^ 2 : ℝ) ≠ 0 := by positivity
      unfold Eclipse at he
      field_simp
      linarith)
    refine ⟨shearOf dx dy, R, θ, e - dx, -dy, shear_ok dx dy h, ?_, ?_, ?_⟩
    · rw [circularRadius_fin]
    · rw [xyAt_fin]
      unfold sheared
      simp only
      rw [h1, h2]
      have e1 : fx * (R * (e / (fx * R))) = e := by field_simp
      have e2 : fy * (R * (-dy / (fy * R))) = -dy := by field_simp
      rw [e1, e2]
      refine Prod.ext ?_ rfl
      simp only
      congr 1
      linear_combination hs
    · refine Prod.ext ?_ ?_ <;> simp
  exact ⟨key _ (by norm_num), key _ (by norm_num)⟩

theorem determineFx_fin (dy fy : ℝ) (h : 0 < fy ^ 2 * (1 + 4 * dy ^ 2) - 4 * dy ^ 2) :
    determineFx (.fin dy) (.fin fy) =
      .fin (fy / √(fy ^ 2 * (1 + 4 * dy ^ 2) - 4 * dy ^ 2)) := by
  unfold determineFx
  simp only [XF.sq_fin, XF.mul_fin, XF.add_fin, XF.sub_fin, XF.le_fin, decide_eq_true_eq]
  have e : fy * fy * (1 + 4 * (dy * dy)) - 4 * (dy * dy) =
    fy ^ 2 * (1 + 4 * dy ^ 2) - 4 * dy ^ 2 := by ring
  rw [e, if_neg (not_le.2 h), XF.div_fin _ _ h.ne', XF.sqrt_fin _ (by positivity), XF.mul_fin]
  rw [sqrt_div zero_le_one, sqrt_one]
  congr 1; ring

theorem determineFy_fin (dy fx : ℝ) (h : 0 < fx ^ 2 * (1 + 4 * dy ^ 2) - 1)
    (h0 : ¬ (dy = 0 ∧ fx = 1)) :
    determineFy (.fin dy) (.fin fx) =
      .fin √(4 * fx ^ 2 * dy ^ 2 / (fx ^ 2 * (1 + 4 * dy ^ 2) - 1)) := by
  unfold determineFy
  simp only [XF.sq_fin, XF.mul_fin, XF.add_fin, XF.sub_fin, XF.le_fin, decide_eq_true_eq,
    XF.eqb_fin, Bool.and_eq_true]
  have e : fx * fx * (1 + 4 * (dy * dy)) - 1 = fx ^ 2 * (1 + 4 * dy ^ 2) - 1 := by ring
  have e' : 4 * (fx * fx) * (dy * dy) = 4 * fx ^ 2 * dy ^ 2 := by ring
  rw [e, e', if_neg h0, if_neg (not_le.2 h), XF.div_fin _ _ h.ne', XF.sqrt_fin _ (by positivity)]

/-- **C51, C54** `_determine_fx` is NaN exactly if no ellipse with this `fy` passes through both end
points; otherwise it gives the only positive `fx` for which it does. -/
theorem C54_fx (dy fy : ℝ) (hy : 0 < fy) :
    (determineFx (.fin dy) (.fin fy) = .nan ↔ fy ^ 2 * (1 + 4 * dy ^ 2) ≤ 4 * dy ^ 2) ∧
    (determineFx (.fin dy) (.fin fy) = .nan ↔ ¬ ∃ fx > 0, Eclipse dy fx fy) ∧
    ∀ fx > 0, determineFx (.fin dy) (.fin fy) = .fin fx ↔ Eclipse dy fx fy := by
  have main : ∀ fx > 0, Eclipse dy fx fy ↔ 0 < fy ^ 2 * (1 + 4 * dy ^ 2) - 4 * dy ^ 2 ∧
      fx = fy / √(fy ^ 2 * (1 + 4 * dy ^ 2) - 4 * dy ^ 2) := by
    intro fx hx
    have e : Eclipse dy fx fy ↔ fx ^ 2 * (fy ^ 2 * (1 + 4 * dy ^ 2) - 4 * dy ^ 2) = fy ^ 2 := by
      unfold Eclipse; constructor <;> intro h <;> linarith
    rw [e]
    constructor
    · intro h
      have hd : 0 < fy ^ 2 * (1 + 4 * dy ^ 2) - 4 * dy ^ 2 := by
        by_contra hn
        have : fx ^ 2 * (fy ^ 2 * (1 + 4 * dy ^ 2) - 4 * dy ^ 2) ≤ 0 :=
          mul_nonpos_of_nonneg_of_nonpos (sq_nonneg _) (not_lt.1 hn)
        have : 0 < fy ^ 2 := by positivity
        linarith
      refine ⟨hd, ?_⟩
      rw [eq_div_iff (sqrt_pos.2 hd).ne']
      have h1 : (fx * √(fy ^ 2 * (1 + 4 * dy ^ 2) - 4 * dy ^ 2)) ^ 2 = fy ^ 2 := by
        rw [mul_pow, sq_sqrt hd.le, h]
      exact (pow_left_inj₀ (by positivity) hy.le (two_ne_zero)).1 h1
    · rintro ⟨hd, rfl⟩
      rw [div_pow, sq_sqrt hd.le]
      field_simp
  have hnan : determineFx (.fin dy) (.fin fy) = .nan ↔
      fy ^ 2 * (1 + 4 * dy ^ 2) ≤ 4 * dy ^ 2 := by
    constructor
    · intro h
      by_contra hn
      rw [determineFx_fin dy fy (by linarith)] at h
      cases h
    · intro h
      unfold determineFx
      simp only [XF.sq_fin, XF.mul_fin, XF.add_fin, XF.sub_fin, XF.le_fin, decide_eq_true_eq]
      rw [if_pos (by nlinarith)]
      rfl
  refine ⟨hnan, ?_, ?_⟩
  · rw [hnan]
    constructor
    · rintro h ⟨fx, hx, he⟩
      have := ((main fx hx).1 he).1
      linarith
    · intro h
      by_contra hn
      have hd : 0 < fy ^ 2 * (1 + 4 * dy ^ 2) - 4 * dy ^ 2 := by linarith
      have hx : 0 < fy / √(fy ^ 2 * (1 + 4 * dy ^ 2) - 4 * dy ^ 2) :=
        div_pos hy (sqrt_pos.2 hd)
      exact h ⟨_, hx, (main _ hx).2 ⟨hd, rfl⟩⟩
  · intro fx hx
    rw [main fx hx]
    constructor
    · intro h
      have hd : 0 < fy ^ 2 * (1 + 4 * dy ^ 2) - 4 * dy ^ 2 := by
        by_contra hn
        rw [hnan.2 (by linarith)] at h
        cases h
      rw [determineFx_fin dy fy hd] at h
      injection h with h
      exact ⟨hd, h.symm⟩
    · rintro ⟨hd, rfl⟩
      exact determineFx_fin dy fy hd

/-- **C54** The same for `_determine_fy` off the axis (`dy ≠ 0`). -/
theorem C54_fy (dy fx : ℝ) (hdy : dy ≠ 0) (hx : 0 < fx) :
    (determineFy (.fin dy) (.fin fx) = .nan ↔ fx ^ 2 * (1 + 4 * dy ^ 2) ≤ 1) ∧
    (determineFy (.fin dy) (.fin fx) = .nan ↔ ¬ ∃ fy > 0, Eclipse dy fx fy) ∧
    ∀ fy > 0, determineFy (.fin dy) (.fin fx) = .fin fy ↔ Eclipse dy fx fy := by
  have h0 : ¬ (dy = 0 ∧ fx = 1) := fun h => hdy h.1
  have hdy2 : 0 < dy ^ 2 := by positivity
  have hnum : 0 < 4 * fx ^ 2 * dy ^ 2 := by positivity
  have main : ∀ fy > 0, Eclipse dy fx fy ↔ 0 < fx ^ 2 * (1 + 4 * dy ^ 2) - 1 ∧
      fy = √(4 * fx ^ 2 * dy ^ 2 / (fx ^ 2 * (1 + 4 * dy ^ 2) - 1)) := by
    intro fy hy
    have e : Eclipse dy fx fy ↔
        fy ^ 2 * (fx ^ 2 * (1 + 4 * dy ^ 2) - 1) = 4 * fx ^ 2 * dy ^ 2 := by
      unfold Eclipse; constructor <;> intro h <;> linarith
    rw [e]
    constructor
    · intro h
      have hd : 0 < fx ^ 2 * (1 + 4 * dy ^ 2) - 1 := by
        by_contra hn
        have : fy ^ 2 * (fx ^ 2 * (1 + 4 * dy ^ 2) - 1) ≤ 0 :=
          mul_nonpos_of_nonneg_of_nonpos (sq_nonneg _) (not_lt.1 hn)
        linarith
      refine ⟨hd, ?_⟩
      rw [← h, mul_div_assoc, div_self hd.ne', mul_one, sqrt_sq hy.le]
    · rintro ⟨hd, rfl⟩
      rw [sq_sqrt (by positivity)]
      field_simp
  have hnan : determineFy (.fin dy) (.fin fx) = .nan ↔ fx ^ 2 * (1 + 4 * dy ^ 2) ≤ 1 := by
    constructor
    · intro h
      by_contra hn
      rw [determineFy_fin dy fx (by linarith) h0] at h
      cases h
    · intro h
      unfold determineFy
      simp only [XF.sq_fin, XF.mul_fin, XF.add_fin, XF.sub_fin, XF.le_fin, decide_eq_true_eq,
        XF.eqb_fin, Bool.and_eq_true]
      rw [if_neg h0, if_pos (by nlinarith)]
  refine ⟨hnan, ?_, ?_⟩
  · rw [hnan]
    constructor
    · rintro h ⟨fy, hy, he⟩
      have := ((main fy hy).1 he).1
      linarith
    · intro h
      by_contra hn
      have hd : 0 < fx ^ 2 * (1 + 4 * dy ^ 2) - 1 := by linarith
      have hy : 0 < √(4 * fx ^ 2 * dy ^ 2 / (fx ^ 2 * (1 + 4 * dy ^ 2) - 1)) :=
        sqrt_pos.2 (by positivity)
      exact h ⟨_, hy, (main _ hy).2 ⟨hd, rfl⟩⟩
  · intro fy hy
    rw [main fy hy]
    constructor
    · intro h
      have hd : 0 < fx ^ 2 * (1 + 4 * dy ^ 2) - 1 := by
        by_contra hn
        rw [hnan.2 (by linarith)] at h
        cases h
      rw [determineFy_fin dy fx hd h0] at h
      injection h with h
      exact ⟨hd, h.symm⟩
    · rintro ⟨hd, rfl⟩
      exact determineFy_fin dy fx hd h0

/-- **C54** The two functions are inverse to each other, and 1 belongs to 1. -/
theorem C54_inverse (dy fx fy : ℝ) (hdy : dy ≠ 0) (hx : 0 < fx) (hy : 0 < fy) :
    (determineFx (.fin dy) (.fin fy) = .fin fx ↔ determineFy (.fin dy) (.fin fx) = .fin fy) ∧
    (determineFx (.fin dy) (.fin fy) = .fin fx → (fx = 1 ↔ fy = 1)) := by
  have h1 := (C54_fx dy fy hy).2.2 fx hx
  have h2 := (C54_fy dy fx hdy hx).2.2 fy hy
  refine ⟨h1.trans h2.symm, ?_⟩
  intro h
  have he := h1.1 h
  unfold Eclipse at he
  have hdy2 : 0 < dy ^ 2 := by positivity
  constructor
  · rintro rfl
    have : 4 * dy ^ 2 * (fy ^ 2 - 1) = 0 := by linarith
    have : fy ^ 2 = 1 := by
      rcases mul_eq_zero.1 this with h | h
      · exact absurd h (by positivity)
      · linarith
    nlinarith
  · rintro rfl
    have : fx ^ 2 = 1 := by linarith
    nlinarith

/-- **C54** On the axis (`dy = 0`, the origin of the grid): every positive `fy` has `fx = 1`, and a
larger `fx` has the degenerate `fy = 0`, for which `fx` is NaN. -/
theorem C54_origin (f : ℝ) (hf : 0 < f) :
    determineFx (.fin 0) (.fin f) = .fin 1 ∧
    determineFy (.fin (0 : ℝ)) (.fin 1) = .fin 1 ∧
    (1 < f → determineFy (.fin 0) (.fin f) = .fin 0) ∧
    (f < 1 → determineFy (.fin 0) (.fin f) = .nan) ∧
    determineFx (.fin (0 : ℝ)) (.fin 0) = .nan := by
  refine ⟨?_, ?_, ?_, ?_, ?_⟩
  · rw [determineFx_fin 0 f (by norm_num; positivity)]
    congr 1
    rw [show f ^ 2 * (1 + 4 * 0 ^ 2) - 4 * 0 ^ 2 = f ^ 2 by ring, sqrt_sq hf.le, div_self hf.ne']
  · simp [determineFy]
  · intro h
    rw [determineFy_fin 0 f (by nlinarith) (by rintro ⟨-, rfl⟩; exact lt_irrefl _ h)]
    simp
  · intro h
    unfold determineFy
    simp only [XF.sq_fin, XF.mul_fin, XF.add_fin, XF.sub_fin, XF.le_fin, decide_eq_true_eq,
        XF.eqb_fin, Bool.and_eq_true]
    rw [if_neg (fun h' => absurd h'.2 h.ne), if_pos (by nlinarith)]
  · unfold determineFx
    simp only [XF.sq_fin, XF.mul_fin, XF.add_fin, XF.sub_fin, XF.le_fin, decide_eq_true_eq]
    rw [if_pos (by norm_num)]
    rfl

/-- A concrete pair: dy = 1/2, fy = 2 belongs to fx = 2/√7. -/
example : Eclipse (1 / 2) (2 / √7) 2 := by
  unfold Eclipse
  have : √7 ^ 2 = (7 : ℝ) := sq_sqrt (by norm_num)
  rw [div_pow 2 (√7), this]; norm_num

/-- **C51, C53** What the grid reports for a point: if `fx` is not NaN, the disk with the reported
radius, inclination and tilt around (dx, dy) covers the eclipse from (-1/2, 0) to (1/2, 0). -/
theorem C53_reported_disk (dx dy fy : ℝ) (h : dy ≠ 0 ∨ dx = 0) (hy : 0 < fy)
    (hn : determineFx (.fin dy) (.fin fy) ≠ .nan) :
    ∃ fx a i t : ℝ, determineFx (.fin dy) (.fin fy) = .fin fx ∧
      diskParameters (determineFx (.fin dy) (.fin fy)) (.fin fy) (shear (.fin dx) (.fin dy))
        (circularRadius (.fin dy)) = (.fin a, .fin i, .fin t) ∧
      ∀ e : ℝ, (e = 1 / 2 ∨ e = -1 / 2) →
        ∃ φ, (e, (0 : ℝ)) = (dx + (tilted a (a * cos (rad i)) (rad t) φ).1,
                            dy + (tilted a (a * cos (rad i)) (rad t) φ).2) := by
  have hd : 0 < fy ^ 2 * (1 + 4 * dy ^ 2) - 4 * dy ^ 2 := by
    by_contra hle
    exact hn ((C54_fx dy fy hy).1.2 (by linarith))
  have hfx := determineFx_fin dy fy hd
  have hx : 0 < fy / √(fy ^ 2 * (1 + 4 * dy ^ 2) - 4 * dy ^ 2) := div_pos hy (sqrt_pos.2 hd)
  generalize fy / √(fy ^ 2 * (1 + 4 * dy ^ 2) - 4 * dy ^ 2) = fx at hfx hx
  have he := ((C54_fx dy fy hy).2.2 fx hx).1 hfx
  have hR : 0 < √(1 / 4 + dy ^ 2) := sqrt_pos.2 (by positivity)
  obtain ⟨a, i, t, hdp, hset⟩ := C53_same_ellipse fx fy (shearOf dx dy) _ hx hy hR
  refine ⟨fx, a, i, t, hfx, ?_, ?_⟩
  · rw [hfx, shear_ok dx dy h, circularRadius_fin, hdp]
  · intro e hee
    have hmem : ((e, 0) : ℝ × ℝ) ∈ curve dx dy fx fy := by
      rcases hee with rfl | rfl
      · exact (C51_through_ends dx dy fx fy h hx hy he).1
      · exact (C51_through_ends dx dy fx fy h hx hy he).2
    obtain ⟨s, R, θ, x, y, h1, h2, h3, h4⟩ := hmem
    rw [shear_ok dx dy h] at h1
    rw [circularRadius_fin] at h2
    injection h1 with h1
    injection h2 with h2
    rw [xyAt_fin] at h3
    injection h3 with h31 h32
    injection h31 with h31
    injection h32 with h32
    have : sheared fx fy s R θ ∈ Set.range (tilted a (a * cos (rad i)) (rad t)) := by
      rw [← hset, h1, h2]; exact ⟨θ, rfl⟩
    obtain ⟨φ, hφ⟩ := this
    exact ⟨φ, by rw [h4, hφ, h31, h32]⟩

/-! ## C56: the formulas at mirrored centres -/

theorem vertex_neg (fx fy s : ℝ) (hx : 0 < fx) (hy : 0 < fy) (hs : s ≠ 0) :
    vertex fx fy (-s) = -vertex fx fy s := by
  unfold vertex
  have h1 : (⟨(-s * -s + 1) * (fy * fy) - fx * fx, 2 * fx * fy * -s⟩ : ℂ) =
      (starRingEnd ℂ) ⟨(s * s + 1) * (fy * fy) - fx * fx, 2 * fx * fy * s⟩ := by
    apply Complex.ext
    · simp
    · simp
  rw [h1, Complex.arg_conj, if_neg]
  · ring
  · intro h
    have := (Complex.arg_eq_pi_iff.1 h).2
    simp only at this
    have h2 : 2 * fx * fy ≠ 0 := by positivity
    exact (mul_ne_zero h2 hs) this

theorem sheared_neg (fx fy s R θ : ℝ) :
    sheared fx fy (-s) R (-θ) = ((sheared fx fy s R θ).1, -(sheared fx fy s R θ).2) := by
  unfold sheared
  rw [cos_neg, sin_neg]
  refine Prod.ext ?_ ?_ <;> simp only <;> ring

theorem size_mirror (p : ℝ × ℝ) : norm2 (p.1, -p.2) = norm2 p := by
  unfold norm2; simp

theorem spread_pos (fx fy s : ℝ) (hx : 0 < fx) (hy : 0 < fy) (hs : s ≠ 0) :
    0 < spread fx fy s := by
  rcases (spread_nonneg fx fy s).eq_or_lt with h | h
  · have := spread_sin fx fy s
    rw [← h, zero_mul] at this
    have h2 : 2 * fx * fy ≠ 0 := by positivity
    exact absurd this.symm (mul_ne_zero h2 hs)
  · exact h

theorem size_lt (fx fy s R : ℝ) (hx : 0 < fx) (hy : 0 < fy) (hR : 0 < R) (hs : s ≠ 0) :
    norm2 (sheared fx fy s R (vertex fx fy s)) <
      norm2 (sheared fx fy s R (vertex fx fy s + π / 2)) := by
  have h0 := spread_pos fx fy s hx hy hs
  unfold norm2
  apply sqrt_lt_sqrt (by positivity)
  rw [sheared_sq, sheared_sq, sub_self, mul_zero, cos_zero, add_sub_cancel_left,
    mul_div_cancel₀ _ (two_ne_zero), cos_pi]
  apply mul_lt_mul_of_pos_left _ (by positivity)
  linarith

/-- The sine of the first angle has the sign of the shear, the cosine is positive. -/
theorem vertex_signs (fx fy s : ℝ) (hx : 0 < fx) (hy : 0 < fy) (hs : s < 0) :
    sin (vertex fx fy s) < 0 ∧ 0 < cos (vertex fx fy s) := by
  have h1 : Complex.arg ⟨(s * s + 1) * (fy * fy) - fx * fx, 2 * fx * fy * s⟩ < 0 := by
    rw [Complex.arg_neg_iff]
    exact mul_neg_of_pos_of_neg (by positivity) hs
  have h2 := Complex.neg_pi_lt_arg ⟨(s * s + 1) * (fy * fy) - fx * fx, 2 * fx * fy * s⟩
  have h3 : vertex fx fy s < 0 := by unfold vertex; linarith
  have h4 : -(π / 2) < vertex fx fy s := by unfold vertex; linarith
  have := pi_pos
  exact ⟨sin_neg_of_neg_of_neg_pi_lt h3 (by linarith), cos_pos_of_mem_Ioo ⟨h4, by linarith⟩⟩

/-- The end of the minor axis that the code uses lies to the right and below for negative shear. -/
theorem vertex_point (fx fy s R : ℝ) (hx : 0 < fx) (hy : 0 < fy) (hR : 0 < R) (hs : s < 0) :
    0 < (sheared fx fy s R (vertex fx fy s)).1 ∧ (sheared fx fy s R (vertex fx fy s)).2 < 0 := by
  obtain ⟨h1, h2⟩ := vertex_signs fx fy s hx hy hs
  have h3 := sheared_perp fx fy s R
  generalize vertex fx fy s = t at *
  have h4 : (sheared fx fy s R t).2 < 0 := by
    unfold sheared
    exact mul_neg_of_pos_of_neg hy (mul_neg_of_pos_of_neg hR h1)
  refine ⟨?_, h4⟩
  have h5 : (sheared fx fy s R (t + π / 2)).1 = -(R * (fx * sin t + s * (fy * cos t))) := by
    unfold sheared; simp only [cos_add_pi_div_two, sin_add_pi_div_two]; ring
  have h6 : 0 < (sheared fx fy s R (t + π / 2)).2 := by
    unfold sheared; simp only [sin_add_pi_div_two]; positivity
  have h7 : 0 < (sheared fx fy s R (t + π / 2)).1 := by
    rw [h5, neg_pos]
    apply mul_neg_of_pos_of_neg hR
    have := mul_neg_of_pos_of_neg hx h1
    have := mul_neg_of_neg_of_pos hs (mul_pos hy h2)
    linarith
  by_contra hle
  have a1 : (sheared fx fy s R t).1 * (sheared fx fy s R (t + π / 2)).1 ≤ 0 :=
    mul_nonpos_of_nonpos_of_nonneg (not_lt.1 hle) h7.le
  have a2 : (sheared fx fy s R t).2 * (sheared fx fy s R (t + π / 2)).2 < 0 :=
    mul_neg_of_neg_of_pos h4 h6
  linarith

/-- The tilt for negative shear lies between 0 and 90 degrees. -/
theorem tiltRad_range (fx fy s R : ℝ) (hx : 0 < fx) (hy : 0 < fy) (hR : 0 < R) (hs : s < 0) :
    0 < tiltRad fx fy s R ∧ tiltRad fx fy s R < π / 2 := by
  obtain ⟨h1, h2⟩ := vertex_point fx fy s R hx hy hR hs
  unfold tiltRad
  simp only
  rw [if_pos (size_lt fx fy s R hx hy hR hs.ne)]
  have h3 : Complex.arg ⟨(sheared fx fy s R (vertex fx fy s)).1,
      (sheared fx fy s R (vertex fx fy s)).2⟩ < 0 := Complex.arg_neg_iff.2 h2
  have h4 := Complex.abs_arg_lt_pi_div_two_iff (z := ⟨(sheared fx fy s R (vertex fx fy s)).1,
      (sheared fx fy s R (vertex fx fy s)).2⟩)
  have h5 := h4.2 (Or.inl h1)
  rw [abs_lt] at h5
  exact ⟨by linarith, by linarith⟩

theorem tiltRad_neg (fx fy s R : ℝ) (hx : 0 < fx) (hy : 0 < fy) (hR : 0 < R) (hs : s < 0) :
    tiltRad fx fy (-s) R = π - tiltRad fx fy s R := by
  obtain ⟨h1, h2⟩ := vertex_point fx fy s R hx hy hR hs
  have hl := size_lt fx fy s R hx hy hR hs.ne
  have hl' := size_lt fx fy (-s) R hx hy hR (by linarith)
  unfold tiltRad
  simp only
  rw [if_pos hl, if_pos hl', vertex_neg fx fy s hx hy hs.ne, sheared_neg]
  simp only
  have : (⟨(sheared fx fy s R (vertex fx fy s)).1, -(sheared fx fy s R (vertex fx fy s)).2⟩ : ℂ) =
      (starRingEnd ℂ) ⟨(sheared fx fy s R (vertex fx fy s)).1,
        (sheared fx fy s R (vertex fx fy s)).2⟩ := by
    apply Complex.ext <;> simp
  rw [this, Complex.arg_conj, if_neg]
  · ring
  · intro h
    have := (Complex.arg_eq_pi_iff.1 h).2
    simp only at this
    exact h2.ne this

theorem diskParameters_neg (fx fy s R : ℝ) (hx : 0 < fx) (hy : 0 < fy) (hR : 0 < R) (hs : s < 0) :
    ∃ a i t : ℝ, 0 < t ∧ t < 90 ∧
      diskParameters (.fin fx) (.fin fy) (.fin s) (.fin R) = (.fin a, .fin i, .fin t) ∧
      diskParameters (.fin fx) (.fin fy) (.fin (-s)) (.fin R) = (.fin a, .fin i, .fin (180 - t)) := by
  have hpi := pi_pos
  obtain ⟨r1, r2⟩ := tiltRad_range fx fy s R hx hy hR hs
  refine ⟨_, _, _, ?_, ?_, diskParameters_fin fx fy s R hx hy hR, ?_⟩
  · positivity
  · calc _ < π / 2 * (180 / π) := mul_lt_mul_of_pos_right r2 (by positivity)
      _ = 90 := by field_simp; norm_num
  · rw [diskParameters_fin fx fy (-s) R hx hy hR, tiltRad_neg fx fy s R hx hy hR hs,
      vertex_neg fx fy s hx hy hs.ne, sheared_neg, size_mirror]
    have : sheared fx fy (-s) R (-vertex fx fy s + π / 2) =
        (-(sheared fx fy s R (vertex fx fy s + π / 2)).1,
          (sheared fx fy s R (vertex fx fy s + π / 2)).2) := by
      unfold sheared
      simp only [cos_add_pi_div_two, sin_add_pi_div_two, cos_neg, sin_neg]
      refine Prod.ext ?_ ?_ <;> simp only <;> ring
    rw [this, show norm2 (-(sheared fx fy s R (vertex fx fy s + π / 2)).1,
          (sheared fx fy s R (vertex fx fy s + π / 2)).2) =
        norm2 (sheared fx fy s R (vertex fx fy s + π / 2)) by unfold norm2; simp]
    refine Prod.ext rfl (Prod.ext rfl ?_)
    simp only
    congr 1
    field_simp

/-- What the code computes for a grid point with these scale factors. -/
noncomputable def Spec.diskAt (dx dy fy : ℝ) : XF ℝ × XF ℝ × XF ℝ :=
  diskParameters (determineFx (.fin dy) (.fin fy)) (.fin fy) (shear (.fin dx) (.fin dy))
    (circularRadius (.fin dy))

theorem determineFx_neg (dy fy : ℝ) :
    determineFx (.fin (-dy)) (.fin fy) = determineFx (.fin dy) (.fin fy) := by
  have h : (XF.fin (-dy)).sq = (XF.fin dy).sq := by rw [XF.sq_fin, XF.sq_fin, neg_mul_neg]
  unfold determineFx
  rw [h]

theorem circularRadius_neg (dy : ℝ) :
    circularRadius (.fin (-dy)) = circularRadius (.fin dy) := by
  rw [circularRadius_fin, circularRadius_fin, neg_sq]

/-- **C56** Evaluating the formulas at the mirrored centres gives what `_fill_quadrants` fills in:
the same radius and inclination everywhere, the same tilt in the opposite quadrant and 180 minus the
tilt in the other two; in the first quadrant the tilt lies between 0 and 90 degrees. -/
theorem C56_direct (dx dy fy : ℝ) (hdx : 0 < dx) (hdy : 0 < dy) (hy : 0 < fy)
    (hn : determineFx (.fin dy) (.fin fy) ≠ .nan) :
    ∃ a i t : ℝ, 0 < t ∧ t < 90 ∧ diskAt dx dy fy = (.fin a, .fin i, .fin t) ∧
      diskAt (-dx) dy fy = (.fin a, .fin i, .fin (180 - t)) ∧
      diskAt (-dx) (-dy) fy = (.fin a, .fin i, .fin t) ∧
      diskAt dx (-dy) fy = (.fin a, .fin i, .fin (180 - t)) := by
  have hd : 0 < fy ^ 2 * (1 + 4 * dy ^ 2) - 4 * dy ^ 2 := by
    by_contra hle
    exact hn ((C54_fx dy fy hy).1.2 (by linarith))
  have hfx := determineFx_fin dy fy hd
  have hx : 0 < fy / √(fy ^ 2 * (1 + 4 * dy ^ 2) - 4 * dy ^ 2) := div_pos hy (sqrt_pos.2 hd)
  have hR : 0 < √(1 / 4 + dy ^ 2) := sqrt_pos.2 (by positivity)
  obtain ⟨a, i, t, t0, t1, h1, h2⟩ := diskParameters_neg _ fy (-dx / dy) _ hx hy hR
    (div_neg_of_neg_of_pos (by linarith) hdy)
  have hny : -dy ≠ 0 := by linarith
  refine ⟨a, i, t, t0, t1, ?_, ?_, ?_, ?_⟩
  · unfold diskAt
    rw [hfx, shear_fin _ _ hdy.ne', circularRadius_fin, h1]
  · unfold diskAt
    rw [hfx, shear_fin _ _ hdy.ne', circularRadius_fin, neg_div, h2]
  · unfold diskAt
    rw [determineFx_neg, circularRadius_neg, hfx, shear_fin _ _ hny, circularRadius_fin,
      neg_div_neg_eq, h1]
  · unfold diskAt
    rw [determineFx_neg, circularRadius_neg, hfx, shear_fin _ _ hny, circularRadius_fin,
      show -dx / -dy = -(-dx / dy) by rw [neg_div_neg_eq, neg_div, neg_neg], h2]

/-- A grid point with an ellipse. -/
example : determineFx (.fin (1 / 2 : ℝ)) (.fin 2) ≠ .nan := by
  intro h
  have := (C54_fx (1 / 2) 2 (by norm_num)).1.1 h
  norm_num at this

/-! ## C55: gradients -/

/-- `(x, y)` lies on the ellipse of the grid point scaled by `l` around the centre, at angle `θ`. -/
def Spec.OnScaled (fx fy s R l θ x y : ℝ) : Prop :=
  x = l * (sheared fx fy s R θ).1 ∧ y = l * (sheared fx fy s R θ).2

/-- Every point but the centre lies on one of the scaled ellipses. -/
theorem C55_exists (fx fy s R x y : ℝ) (hx : 0 < fx) (hy : 0 < fy) (hR : 0 < R)
    (h : x ≠ 0 ∨ y ≠ 0) : ∃ l > 0, ∃ θ, OnScaled fx fy s R l θ x y := by
  obtain ⟨c, hc⟩ : ∃ c, c = (x + s * y) / (fx * R) := ⟨_, rfl⟩
  obtain ⟨d, hd⟩ : ∃ d, d = y / (fy * R) := ⟨_, rfl⟩
  have hpos : 0 < c ^ 2 + d ^ 2 := by
    by_contra hle
    have g1 := sq_nonneg c
    have g2 := sq_nonneg d
    have hc0 : c = 0 := pow_eq_zero_iff (two_ne_zero) |>.1 (by linarith)
    have hd0 : d = 0 := pow_eq_zero_iff (two_ne_zero) |>.1 (by linarith)
    have hy0 : y = 0 := by
      rw [hd, div_eq_zero_iff] at hd0
      exact hd0.resolve_right (by positivity)
    have hx0 : x = 0 := by
      rw [hc, div_eq_zero_iff, hy0, mul_zero, add_zero] at hc0
      exact hc0.resolve_right (by positivity)
    rcases h with h | h
    · exact h hx0
    · exact h hy0
  have hl := sqrt_pos.2 hpos
  have hl2 : √(c ^ 2 + d ^ 2) ^ 2 = c ^ 2 + d ^ 2 := sq_sqrt hpos.le
  obtain ⟨θ, h1, h2⟩ := exists_angle (c / √(c ^ 2 + d ^ 2)) (d / √(c ^ 2 + d ^ 2)) (by
    rw [div_pow, div_pow, hl2]; field_simp)
  refine ⟨√(c ^ 2 + d ^ 2), hl, θ, ?_, ?_⟩
  · unfold sheared
    simp only
    rw [h1, h2, show √(c ^ 2 + d ^ 2) * (fx * (R * (c / √(c ^ 2 + d ^ 2))) -
      s * (fy * (R * (d / √(c ^ 2 + d ^ 2))))) = fx * R * c - s * (fy * R * d) by field_simp,
      hc, hd]
    field_simp
    ring
  · unfold sheared
    simp only
    rw [h2, show √(c ^ 2 + d ^ 2) * (fy * (R * (d / √(c ^ 2 + d ^ 2)))) = fy * R * d by
      field_simp, hd]
    field_simp

theorem abs_sin_arg (t : ℝ) : |sin (Complex.arg ⟨1, t⟩)| = |t| / √(1 + t ^ 2) := by
  rw [Complex.sin_arg, Complex.norm_eq_sqrt_sq_add_sq, abs_div, abs_of_nonneg (sqrt_nonneg _)]
  simp

/-- **C55** The gradient stored for a position is |sin| of the angle between the tangent, at
(position, 0), of the scaled ellipse through that point and the x axis: with tangent vector
(tx, ty) it is |ty| / |(tx, ty)|.  It is NaN exactly if the tangent is vertical, and otherwise at
least 0 and less than 1. -/
theorem C55_gradient (position dx dy fx fy R l θ tx ty : ℝ) (h : dy ≠ 0 ∨ dx = 0) (hx : 0 < fx)
    (hy : 0 < fy)
    (hon : OnScaled fx fy (shearOf dx dy) R l θ (position - dx) (-dy))
    (htx : HasDerivAt (fun φ => l * (sheared fx fy (shearOf dx dy) R φ).1) tx θ)
    (hty : HasDerivAt (fun φ => l * (sheared fx fy (shearOf dx dy) R φ).2) ty θ) :
    let g := diskGradient (.fin position) (.fin dx) (.fin dy) (shear (.fin dx) (.fin dy))
      (.fin fx) (.fin fy)
    (g = .nan ↔ tx = 0) ∧
    (tx ≠ 0 → g = .fin (|ty| / √(tx ^ 2 + ty ^ 2)) ∧ 0 ≤ |ty| / √(tx ^ 2 + ty ^ 2) ∧
      |ty| / √(tx ^ 2 + ty ^ 2) < 1) := by
  intro g
  -- the tangent vector
  have e1 : tx = l * (fx * (R * -sin θ) - shearOf dx dy * (fy * (R * cos θ))) := by
    refine htx.unique ?_
    unfold sheared
    exact (((((hasDerivAt_cos θ).const_mul R).const_mul fx).sub
      ((((hasDerivAt_sin θ).const_mul R).const_mul fy).const_mul (shearOf dx dy)))).const_mul l
  have e2 : ty = l * (fy * (R * cos θ)) := by
    refine hty.unique ?_
    unfold sheared
    exact ((((hasDerivAt_sin θ).const_mul R).const_mul fy)).const_mul l
  obtain ⟨o1, o2⟩ := hon
  unfold sheared at o1 o2
  simp only at o1 o2
  generalize hs : shearOf dx dy = s at *
  -- numerator and denominator
  have hg : g = if tx = 0 then .nan else .fin |sin (Complex.arg ⟨1, ty / tx⟩)| := by
    simp only [g]
    unfold diskGradient
    rw [shear_ok dx dy h, hs]
    simp only [XF.sub_fin, XF.neg_fin, XF.sq_fin, XF.mul_fin, XF.add_fin, XF.eqb_fin]
    have hden : (s * s * (fy * fy) + fx * fx) * -dy + s * (fy * fy) * (position - dx) =
        -(fx * fy) * tx := by
      rw [o1, o2, e1]; ring
    have hnum : -s * (fy * fy) * -dy - fy * fy * (position - dx) = -(fx * fy) * ty := by
      rw [o1, o2, e2]; ring
    rw [hden, hnum]
    have hfxy : -(fx * fy) ≠ 0 := by
      have := mul_pos hx hy
      linarith
    by_cases h0 : tx = 0
    · rw [if_pos h0, h0, mul_zero]
      simp [XF.arctan2, XF.sin, XF.abs]
    · rw [if_neg h0]
      have : decide (-(fx * fy) * tx = 0) = false := by
        rw [decide_eq_false_iff_not]; exact mul_ne_zero hfxy h0
      rw [this]
      simp only [Bool.not_false, if_true]
      rw [XF.div_fin _ _ (mul_ne_zero hfxy h0), mul_div_mul_left _ _ hfxy, XF.arctan2_fin,
        XF.sin_fin, XF.abs_fin]
  constructor
  · rw [hg]
    by_cases h0 : tx = 0
    · rw [if_pos h0]; exact ⟨fun _ => h0, fun _ => rfl⟩
    · rw [if_neg h0]
      exact ⟨(fun h => by cases h), fun h => absurd h h0⟩
  · intro h0
    rw [hg, if_neg h0]
    have hn : 0 < tx ^ 2 + ty ^ 2 := by positivity
    refine ⟨?_, by positivity, ?_⟩
    · congr 1
      rw [abs_sin_arg, abs_div, div_pow,
        show 1 + ty ^ 2 / tx ^ 2 = (tx ^ 2 + ty ^ 2) / tx ^ 2 by field_simp,
        sqrt_div hn.le, sqrt_sq_eq_abs]
      have := abs_pos.2 h0
      have := sqrt_pos.2 hn
      field_simp
    · rw [div_lt_one (sqrt_pos.2 hn)]
      rw [← sqrt_sq_eq_abs]
      apply sqrt_lt_sqrt (sq_nonneg _)
      have : 0 < tx ^ 2 := by positivity
      linarith

/-- **C55** At the centre itself there is no tangent and the gradient is NaN. -/
theorem C55_centre (fx fy : ℝ) :
    diskGradient (.fin 0) (.fin 0) (.fin 0) (shear (.fin (0 : ℝ)) (.fin 0)) (.fin fx) (.fin fy) =
      .nan := by
  unfold diskGradient
  rw [shear_origin]
  simp only [XF.sub_fin, XF.neg_fin, XF.sq_fin, XF.mul_fin, XF.add_fin, XF.eqb_fin]
  simp [XF.arctan2, XF.sin, XF.abs]

/-- A position on the ellipse of the unit circle scale factors has such an angle. -/
example : ∃ l > 0, ∃ θ, OnScaled 1 1 (shearOf 1 1) 1 l θ (1 / 4 - 1) (-1) :=
  C55_exists 1 1 _ 1 _ _ one_pos one_pos one_pos (by norm_num)

/-! ## C60: the orbital scale -/

/-- **C60** For limb darkening between 0 and 1 and positive velocity the scale is a positive number,
between 4 / (3 v) and π / (2 v), strictly decreasing in the velocity and in the limb darkening. -/
theorem C60_orbital_scale :
    (∀ u v : ℝ, 0 ≤ u → u ≤ 1 → 0 < v → ∃ k : ℝ, orbitalScale (.fin u) (.fin v) = .fin k ∧ 0 < k ∧
      4 / (3 * v) ≤ k ∧ k ≤ π / (2 * v)) ∧
    (∀ u u' v k k' : ℝ, 0 ≤ u → u < u' → u' ≤ 1 → 0 < v → orbitalScale (.fin u) (.fin v) = .fin k →
      orbitalScale (.fin u') (.fin v) = .fin k' → k' < k) ∧
    (∀ u v v' k k' : ℝ, 0 ≤ u → u ≤ 1 → 0 < v → v < v' → orbitalScale (.fin u) (.fin v) = .fin k →
      orbitalScale (.fin u) (.fin v') = .fin k' → k' < k) := by
  have hpi := pi_gt_three
  have hpi4 := pi_lt_four
  have hden : ∀ u : ℝ, 0 ≤ u → u ≤ 1 → 0 < 12 - 12 * u + 3 * π * u := by
    intro u h0 h1
    nlinarith
  have hval : ∀ u v : ℝ, 0 ≤ u → u ≤ 1 → 0 < v → orbitalScale (.fin u) (.fin v) =
      .fin ((6 - 2 * u) / (12 - 12 * u + 3 * π * u) * (π / v)) := by
    intro u v h0 h1 hv
    unfold orbitalScale
    simp only [XF.mul_fin, XF.sub_fin, XF.add_fin, XF.pi_eq]
    rw [XF.div_fin _ _ (hden u h0 h1).ne', XF.div_fin _ _ hv.ne', XF.mul_fin]
  have hmono : ∀ u u' : ℝ, 0 ≤ u → u < u' → u' ≤ 1 →
      (6 - 2 * u') / (12 - 12 * u' + 3 * π * u') < (6 - 2 * u) / (12 - 12 * u + 3 * π * u) := by
    intro u u' h0 h1 h2
    rw [div_lt_div_iff₀ (hden u' (by linarith) h2) (hden u h0 (by linarith))]
    nlinarith
  have hle : ∀ u u' : ℝ, 0 ≤ u → u ≤ u' → u' ≤ 1 →
      (6 - 2 * u') / (12 - 12 * u' + 3 * π * u') ≤ (6 - 2 * u) / (12 - 12 * u + 3 * π * u) := by
    intro u u' h0 h1 h2
    rcases h1.eq_or_lt with rfl | h1
    · exact le_rfl
    · exact (hmono u u' h0 h1 h2).le
  refine ⟨?_, ?_, ?_⟩
  · intro u v h0 h1 hv
    have hd := hden u h0 h1
    have hpv : 0 < π / v := by positivity
    refine ⟨_, hval u v h0 h1 hv, ?_, ?_, ?_⟩
    · have : 0 < 6 - 2 * u := by linarith
      positivity
    · have := mul_le_mul_of_nonneg_right (hle u 1 h0 h1 le_rfl) hpv.le
      calc 4 / (3 * v) = (6 - 2 * 1) / (12 - 12 * 1 + 3 * π * 1) * (π / v) := by
            field_simp; ring
        _ ≤ _ := this
    · have := mul_le_mul_of_nonneg_right (hle 0 u le_rfl h0 h1) hpv.le
      calc _ ≤ (6 - 2 * 0) / (12 - 12 * 0 + 3 * π * 0) * (π / v) := this
        _ = π / (2 * v) := by ring
  · intro u u' v k k' h0 h1 h2 hv hk hk'
    rw [hval u v h0 (by linarith) hv] at hk
    rw [hval u' v (by linarith) h2 hv] at hk'
    injection hk with hk
    injection hk' with hk'
    rw [← hk, ← hk']
    exact mul_lt_mul_of_pos_right (hmono u u' h0 h1 h2) (by positivity)
  · intro u v v' k k' h0 h1 hv hvv hk hk'
    rw [hval u v h0 h1 hv] at hk
    rw [hval u v' h0 h1 (by linarith)] at hk'
    injection hk with hk
    injection hk' with hk'
    rw [← hk, ← hk']
    have hd := hden u h0 h1
    have h6 : 0 < 6 - 2 * u := by linarith
    apply mul_lt_mul_of_pos_left _ (by positivity)
    exact div_lt_div_of_pos_left (by positivity) hv hvv

end Beyonce
