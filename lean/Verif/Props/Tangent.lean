import Verif.Props.Covered
import Verif.Props.GetGradients
import Verif.Props.Solved

/-!
# C94: the stored gradients are those of the reported disks

From `_determine_disk_gradients` to the disks: whatever has been called on a grid, each number in a
gradient cube is the slope, where the star stands at that time, of the edge of the disk that the grid
was built with at this grid point.
-/

set_option linter.unusedSectionVars false

namespace Beyonce
open Spec Geometry Real

/-! ## The tangent of a disk -/

/-- `v` is the gradient, at `(p, 0)`, of the disk around `(dx, dy)` with the semi-major axis `a`, the
inclination `i` and the tilt `t` in degrees: the ellipse is scaled around its centre until it passes
through that point, `(tx, ty)` is its tangent there, and `v` is |sin| of the angle of the tangent with
the x axis.  It is NaN if the tangent is vertical, and at the centre itself. -/
def Spec.TangentTo (dx dy a i t p : ℝ) (v : XF ℝ) : Prop :=
  (p = dx ∧ dy = 0 ∧ v = .nan) ∨
  ∃ l φ tx ty : ℝ, 0 < l ∧
    p = dx + l * (tilted a (a * cos (rad i)) (rad t) φ).1 ∧
    0 = dy + l * (tilted a (a * cos (rad i)) (rad t) φ).2 ∧
    HasDerivAt (fun θ => dx + l * (tilted a (a * cos (rad i)) (rad t) θ).1) tx φ ∧
    HasDerivAt (fun θ => dy + l * (tilted a (a * cos (rad i)) (rad t) θ).2) ty φ ∧
    (tx = 0 → v = .nan) ∧ (tx ≠ 0 → v = .fin (|ty| / √(tx ^ 2 + ty ^ 2)))

/-- The scaled disks cover the plane. -/
theorem tilted_reaches (a b τ x y : ℝ) (ha : 0 < a) (hb : 0 < b) (h : x ≠ 0 ∨ y ≠ 0) :
    ∃ l > 0, ∃ φ, x = l * (tilted a b τ φ).1 ∧ y = l * (tilted a b τ φ).2 := by
  have e := sin_sq_add_cos_sq τ
  obtain ⟨c, hc⟩ : ∃ c, c = (x * cos τ + y * sin τ) / a := ⟨_, rfl⟩
  obtain ⟨d, hd⟩ : ∃ d, d = (y * cos τ - x * sin τ) / b := ⟨_, rfl⟩
  have hc' : a * c = x * cos τ + y * sin τ := by rw [hc]; field_simp
  have hd' : b * d = y * cos τ - x * sin τ := by rw [hd]; field_simp
  have hx : x = a * c * cos τ - b * d * sin τ := by rw [hc', hd']; linear_combination -x * e
  have hy : y = a * c * sin τ + b * d * cos τ := by rw [hc', hd']; linear_combination -y * e
  have hpos : 0 < c ^ 2 + d ^ 2 := by
    by_contra hn
    have hc0 : c = 0 := pow_eq_zero_iff two_ne_zero |>.1 (by nlinarith [sq_nonneg c, sq_nonneg d])
    have hd0 : d = 0 := pow_eq_zero_iff two_ne_zero |>.1 (by nlinarith [sq_nonneg c, sq_nonneg d])
    rw [hc0, hd0] at hx hy
    rcases h with h | h
    · exact h (by rw [hx]; ring)
    · exact h (by rw [hy]; ring)
  have hl := sqrt_pos.2 hpos
  have hl2 : √(c ^ 2 + d ^ 2) ^ 2 = c ^ 2 + d ^ 2 := sq_sqrt hpos.le
  obtain ⟨φ, h1, h2⟩ := exists_angle (c / √(c ^ 2 + d ^ 2)) (d / √(c ^ 2 + d ^ 2)) (by
    rw [div_pow, div_pow, hl2]; field_simp)
  refine ⟨√(c ^ 2 + d ^ 2), hl, φ, ?_, ?_⟩
  · unfold tilted
    simp only
    rw [h1, h2, hx]
    field_simp
  · unfold tilted
    simp only
    rw [h1, h2, hy]
    field_simp

theorem tilted_deriv (a b τ φ : ℝ) :
    HasDerivAt (fun θ => (tilted a b τ θ).1) (a * -sin φ * cos τ - b * cos φ * sin τ) φ ∧
    HasDerivAt (fun θ => (tilted a b τ θ).2) (a * -sin φ * sin τ + b * cos φ * cos τ) φ := by
  unfold tilted
  simp only
  exact ⟨(((hasDerivAt_cos φ).const_mul a).mul_const _).sub (((hasDerivAt_sin φ).const_mul b).mul_const _),
    (((hasDerivAt_cos φ).const_mul a).mul_const _).add (((hasDerivAt_sin φ).const_mul b).mul_const _)⟩

/-- The slope that the code computes from the scale factors is that of the tangent of the disk. -/
theorem diskGradient_tangent (dx dy fx fy a i t p : ℝ) (h : dy ≠ 0 ∨ dx = 0) (hx : 0 < fx) (hy : 0 < fy)
    (ha : 0 < a) (hi0 : 0 ≤ i) (hi : i < 90) (hd : DiskOf dx dy fx fy a i t) :
    TangentTo dx dy a i t p (diskGradient (.fin p) (.fin dx) (.fin dy)
      (shear (.fin dx) (.fin dy)) (.fin fx) (.fin fy)) := by
  have hb : 0 < a * cos (rad i) := mul_pos ha (cos_deg_pos hi0 hi)
  by_cases hcen : p = dx ∧ dy = 0
  · left
    obtain ⟨rfl, rfl⟩ := hcen
    obtain rfl : p = 0 := by simpa using h
    exact ⟨rfl, rfl, C55_centre fx fy⟩
  right
  have hne : p - dx ≠ 0 ∨ -dy ≠ 0 := by
    by_contra hno
    push Not at hno
    exact hcen ⟨by linarith [hno.1], by linarith [hno.2]⟩
  obtain ⟨b, hbe⟩ : ∃ b, b = a * cos (rad i) := ⟨_, rfl⟩
  obtain ⟨τ, hτ⟩ : ∃ τ, τ = rad t := ⟨_, rfl⟩
  unfold DiskOf at hd
  rw [← hbe, ← hτ] at hd
  simp only [← hbe, ← hτ]
  rw [← hbe] at hb
  have e := sin_sq_add_cos_sq τ
  obtain ⟨l, hl, φ, e1, e2⟩ := tilted_reaches a b τ _ _ ha hb hne
  obtain ⟨k1, k2⟩ := tilted_deriv a b τ φ
  have eφ := sin_sq_add_cos_sq φ
  obtain ⟨X, hX⟩ : ∃ X, X = (tilted a b τ φ).1 := ⟨_, rfl⟩
  obtain ⟨Y, hY⟩ : ∃ Y, Y = (tilted a b τ φ).2 := ⟨_, rfl⟩
  obtain ⟨U, hU⟩ : ∃ U, U = a * -sin φ * cos τ - b * cos φ * sin τ := ⟨_, rfl⟩
  obtain ⟨V, hV⟩ : ∃ V, V = a * -sin φ * sin τ + b * cos φ * cos τ := ⟨_, rfl⟩
  rw [← hU] at k1
  rw [← hV] at k2
  rw [← hX] at e1
  rw [← hY] at e2
  obtain ⟨s, hs⟩ : ∃ s, s = shearOf dx dy := ⟨_, rfl⟩
  rw [← hs] at hd
  -- the ellipse is a level curve of a quadratic form
  have hlevel : ∀ θ, fy ^ 2 * ((tilted a b τ θ).1 + s * (tilted a b τ θ).2) ^ 2 +
      fx ^ 2 * (tilted a b τ θ).2 ^ 2 = fx ^ 2 * fy ^ 2 * (1 / 4 + dy ^ 2) := by
    intro θ
    have : tilted a b τ θ ∈ Set.range (sheared fx fy s √(1 / 4 + dy ^ 2)) := by
      rw [hd]; exact ⟨θ, rfl⟩
    obtain ⟨ψ, hψ⟩ := this
    rw [← hψ]
    unfold sheared
    simp only
    have r2 : √(1 / 4 + dy ^ 2) ^ 2 = 1 / 4 + dy ^ 2 := sq_sqrt (by positivity)
    have eψ := sin_sq_add_cos_sq ψ
    linear_combination fx ^ 2 * fy ^ 2 * r2 + fx ^ 2 * fy ^ 2 * √(1 / 4 + dy ^ 2) ^ 2 * eψ
  have hflat : fy ^ 2 * (X + s * Y) * (U + s * V) + fx ^ 2 * Y * V = 0 := by
    have h1 : HasDerivAt (fun θ => fy ^ 2 * ((tilted a b τ θ).1 + s * (tilted a b τ θ).2) ^ 2 +
      fx ^ 2 * (tilted a b τ θ).2 ^ 2)
      (fy ^ 2 * (2 * ((tilted a b τ φ).1 + s * (tilted a b τ φ).2) ^ (2 - 1) * (U + s * V)) +
        fx ^ 2 * (2 * (tilted a b τ φ).2 ^ (2 - 1) * V)) φ :=
      ((((k1.add (k2.const_mul s)).pow 2).const_mul (fy ^ 2)).add ((k2.pow 2).const_mul (fx ^ 2)))
    have h2 : HasDerivAt (fun θ => fy ^ 2 * ((tilted a b τ θ).1 + s * (tilted a b τ θ).2) ^ 2 +
      fx ^ 2 * (tilted a b τ θ).2 ^ 2) 0 φ := by
      simp only [hlevel]
      exact hasDerivAt_const _ _
    have := h1.unique h2
    simp only [Nat.add_one_sub_one, pow_one] at this
    rw [← hX, ← hY] at this
    linarith
  have hUV : ¬ (U = 0 ∧ V = 0) := by
    rintro ⟨u0, v0⟩
    rw [hU] at u0
    rw [hV] at v0
    have c0 : b * cos φ = 0 := by linear_combination -sin τ * u0 + cos τ * v0 - b * cos φ * e
    have s0 : a * sin φ = 0 := by linear_combination -cos τ * u0 - sin τ * v0 - a * sin φ * e
    have c1 := (mul_eq_zero.1 c0).resolve_left hb.ne'
    have s1 := (mul_eq_zero.1 s0).resolve_left ha.ne'
    rw [c1, s1] at eφ
    norm_num at eφ
  have hXY : ¬ (X = 0 ∧ Y = 0) := by
    rintro ⟨x0, y0⟩
    rw [x0, mul_zero] at e1
    rw [y0, mul_zero] at e2
    rcases hne with h | h
    · exact h e1
    · exact h e2
  refine ⟨l, φ, l * U, l * V, hl, by rw [← hX]; linarith, by rw [← hY]; linarith,
    (k1.const_mul l).const_add dx, (k2.const_mul l).const_add dy, ?_⟩
  -- numerator and denominator
  obtain ⟨N, hN⟩ : ∃ N, N = -(fy ^ 2 * (X + s * Y)) := ⟨_, rfl⟩
  obtain ⟨D, hD⟩ : ∃ D, D = s * (fy ^ 2 * (X + s * Y)) + fx ^ 2 * Y := ⟨_, rfl⟩
  have hcross : N * U = D * V := by rw [hN, hD]; linear_combination -hflat
  have hND : ¬ (N = 0 ∧ D = 0) := by
    rintro ⟨n0, d0⟩
    rw [hN] at n0
    rw [hD] at d0
    have z : fy ^ 2 * (X + s * Y) = 0 := by linarith
    rw [z, mul_zero, zero_add] at d0
    have y0 : Y = 0 := (mul_eq_zero.1 d0).resolve_left (by positivity)
    have := (mul_eq_zero.1 z).resolve_left (by positivity)
    rw [y0, mul_zero, add_zero] at this
    exact hXY ⟨this, y0⟩
  have hD0 : D = 0 ↔ U = 0 := by
    constructor
    · intro d0
      rw [d0, zero_mul] at hcross
      exact (mul_eq_zero.1 hcross).resolve_left fun n0 => hND ⟨n0, d0⟩
    · intro u0
      rw [u0, mul_zero] at hcross
      exact (mul_eq_zero.1 hcross.symm).resolve_right fun v0 => hUV ⟨u0, v0⟩
  have hg : diskGradient (.fin p) (.fin dx) (.fin dy) (shear (.fin dx) (.fin dy)) (.fin fx) (.fin fy) =
      if U = 0 then .nan else .fin |sin (Complex.arg ⟨1, V / U⟩)| := by
    unfold diskGradient
    rw [shear_ok dx dy h, ← hs]
    simp only [XF.sub_fin, XF.neg_fin, XF.sq_fin, XF.mul_fin, XF.add_fin, XF.eqb_fin]
    have hden : (s * s * (fy * fy) + fx * fx) * -dy + s * (fy * fy) * (p - dx) = l * D := by
      rw [e1, e2, hD]; ring
    have hnum : -s * (fy * fy) * -dy - fy * fy * (p - dx) = l * N := by
      rw [e1, e2, hN]; ring
    rw [hden, hnum]
    by_cases h0 : U = 0
    · rw [if_pos h0, hD0.2 h0, mul_zero]
      simp [XF.arctan2, XF.sin, XF.abs]
    · have d0 : D ≠ 0 := fun d => h0 (hD0.1 d)
      rw [if_neg h0]
      have : decide (l * D = 0) = false := by
        rw [decide_eq_false_iff_not]; exact mul_ne_zero hl.ne' d0
      rw [this]
      simp only [Bool.not_false, if_true]
      rw [XF.div_fin _ _ (mul_ne_zero hl.ne' d0), mul_div_mul_left _ _ hl.ne', XF.arctan2_fin,
        XF.sin_fin, XF.abs_fin, show N / D = V / U by rw [div_eq_div_iff d0 h0, hcross]; ring]
  rw [hg]
  constructor
  · intro h0
    rw [if_pos ((mul_eq_zero.1 h0).resolve_left hl.ne')]
  · intro h0
    have u0 : U ≠ 0 := fun u => h0 (by rw [u, mul_zero])
    rw [if_neg u0, abs_sin_arg]
    congr 1
    have hn : 0 < U ^ 2 + V ^ 2 := by positivity
    rw [abs_div, div_pow, show 1 + V ^ 2 / U ^ 2 = (U ^ 2 + V ^ 2) / U ^ 2 by field_simp,
      sqrt_div hn.le, sqrt_sq_eq_abs, abs_mul, abs_of_pos hl,
      show (l * U) ^ 2 + (l * V) ^ 2 = l ^ 2 * (U ^ 2 + V ^ 2) by ring, sqrt_mul (by positivity),
      sqrt_sq hl.le]
    have := abs_pos.2 u0
    have := sqrt_pos.2 hn
    field_simp

/-! ## NaN -/

theorem diskGradient_unknown (p dx dy sh fx fy : XF ℝ) (h : fx = .nan ∨ fy = .nan) :
    diskGradient p dx dy sh fx fy = .nan := by
  have s1 : ∀ a : XF ℝ, a.sub .nan = .nan := fun a => by cases a <;> rfl
  have s2 : ∀ a : XF ℝ, XF.sub .nan a = .nan := fun a => by cases a <;> rfl
  have m1 : ∀ a : XF ℝ, a.mul .nan = .nan := fun a => by cases a <;> rfl
  have m2 : ∀ a : XF ℝ, XF.mul .nan a = .nan := fun a => by cases a <;> rfl
  have a1 : ∀ a : XF ℝ, a.add .nan = .nan := fun a => by cases a <;> rfl
  have a2 : ∀ a : XF ℝ, XF.add .nan a = .nan := fun a => by cases a <;> rfl
  have d1 : ∀ a : XF ℝ, a.div .nan = .nan := fun a => by cases a <;> rfl
  have q : XF.sq (.nan : XF ℝ) = .nan := rfl
  unfold diskGradient
  rcases h with rfl | rfl
  · simp only [q, a1, a2, m2, d1]
    rfl
  · simp only [q, s1, s2, m1, m2, a1, a2, d1]
    rfl

/-- At a position that is no number there is no gradient. -/
theorem diskGradient_infinite (p : XF ℝ) (dx dy sh fx fy : ℝ) (hp : ∀ z : ℝ, p ≠ .fin z) (hy : 0 < fy) :
    diskGradient p (.fin dx) (.fin dy) (.fin sh) (.fin fx) (.fin fy) = .nan := by
  have hf : 0 < fy * fy := mul_pos hy hy
  have hf' : ¬ fy * fy < 0 := hf.le.not_gt
  have key : ∀ tangent : XF ℝ, tangent = .nan →
      (XF.arctan2 tangent (.fin (1 : ℝ))).sin.abs = .nan := by
    rintro _ rfl; rfl
  unfold diskGradient
  refine key _ ?_
  simp only [XF.neg_fin, XF.sq_fin, XF.mul_fin, XF.add_fin]
  rcases lt_trichotomy sh 0 with hs | hs | hs
  · have h1 : sh * (fy * fy) < 0 := mul_neg_of_neg_of_pos hs hf
    have h2 : ¬ 0 < sh * (fy * fy) := h1.le.not_gt
    have h3 : 0 < -(sh * (fy * fy)) := by linarith
    cases p with
    | nan => simp [XF.sub, XF.add, XF.mul, XF.eqb, XF.div, XF.neg]
    | fin z => exact absurd rfl (hp z)
    | pinf => simp only [XF.sub, XF.add, XF.mul, XF.neg, XF.infSign, hf, h1, h2, if_true, if_false, XF.eqb,
        Bool.not_false, XF.div]
    | ninf => simp [XF.sub, XF.add, XF.mul, XF.neg, XF.infSign, hf', hf, h1, h2, h3, XF.eqb, XF.div]
  · subst hs
    cases p with
    | nan => simp [XF.sub, XF.add, XF.mul, XF.eqb, XF.div, XF.neg]
    | fin z => exact absurd rfl (hp z)
    | pinf => simp [XF.sub, XF.add, XF.mul, XF.neg, XF.infSign, hf, XF.eqb, XF.div]
    | ninf => simp [XF.sub, XF.add, XF.mul, XF.neg, XF.infSign, hf, hf', XF.eqb, XF.div]
  · have h1 : 0 < sh * (fy * fy) := mul_pos hs hf
    have h2 : ¬ 0 < -(sh * (fy * fy)) := by linarith
    have h3 : -(sh * (fy * fy)) < 0 := by linarith
    cases p with
    | nan => simp [XF.sub, XF.add, XF.mul, XF.eqb, XF.div, XF.neg]
    | fin z => exact absurd rfl (hp z)
    | pinf => simp [XF.sub, XF.add, XF.mul, XF.neg, XF.infSign, hf, h1, XF.eqb, XF.div]
    | ninf => simp only [XF.sub, XF.add, XF.mul, XF.neg, XF.infSign, neg_lt_zero, Left.neg_pos_iff, hf, hf', h1,
        h1.le.not_gt, if_true, if_false, XF.eqb, Bool.not_false, XF.div]

/-! ## The gradients of a grid -/

/-- `v` is the gradient at `(position, 0)` of the disk that the grid holds at `(y, x, r)`; NaN if it
holds none, or if the position is no number. -/
def Spec.GradientAt (s : Shallot ℝ) (y x r : ℕ) (position v : XF ℝ) : Prop :=
  ∃ dx dy : ℝ, s.params.dx.data[x]? = some (.fin dx) ∧ s.params.dy.data[y]? = some (.fin dy) ∧
    ((s.diskRadius.data.at3 y x r = .nan ∧ v = .nan) ∨ ((∀ z : ℝ, position ≠ .fin z) ∧ v = .nan) ∨
      ∃ a i t p : ℝ, s.diskRadius.data.at3 y x r = .fin a ∧ s.inclination.data.at3 y x r = .fin i ∧
        s.tilt.data.at3 y x r = .fin t ∧ position = .fin p ∧ TangentTo dx dy a i t p v)

/-- What any history leaves of the gradients: the numbers computed from the scale factors of `t`, or
NaN. -/
def slopeScheme {K : Type} [Field K] [LinearOrder K] [RealFns K] (t : Shallot K) : Scheme K where
  cube c o := c = .fxMap ∨ c = .fyMap → ∀ p q, o = some p → t.prop c = some q →
    p.data.shape = q.data.shape ∧
    ∀ (i : ℕ) (x : XF K), p.data.data[i]? = some x → x = XF.nan ∨ q.data.data[i]? = some x
  grad g := ∃ x : XF K, g.position = .npFloat .w64 x ∧ g.prop.data.shape = (t.gradientCube x).shape ∧
    ∀ (i : ℕ) (v : XF K), g.prop.data.data[i]? = some v →
      v = XF.nan ∨ (t.gradientCube x).data[i]? = some v
  frame P sh := P = t.params ∧ sh = t.shear

theorem slopeScheme_faded {t : Shallot ℝ} {c : Cube} {p p' : GProp ℝ} {M : ℕ → Prop}
    (h : (slopeScheme t).cube c (some p)) (hf : FadedProp M p p') : (slopeScheme t).cube c (some p') := by
  intro hc a q ha hq
  cases ha
  obtain ⟨h1, h2⟩ := h hc p q rfl hq
  refine ⟨hf.shape.trans h1, fun i x hx => ?_⟩
  rcases hf.values i with h | ⟨h, -⟩
  · exact h2 i x (h ▸ hx)
  · rw [h] at hx
    exact Or.inl (Option.some.inj hx).symm

theorem slope_at3 {p q : GProp ℝ} (h1 : p.data.shape = q.data.shape)
    (h2 : ∀ (i : ℕ) (x : XF ℝ), p.data.data[i]? = some x → x = XF.nan ∨ q.data.data[i]? = some x)
    (y x r : ℕ) : p.data.at3 y x r = .nan ∨ p.data.at3 y x r = q.data.at3 y x r := by
  unfold Nd.at3
  rw [h1]
  split
  · rename_i a b c hs
    rw [List.getD_eq_getElem?_getD, List.getD_eq_getElem?_getD]
    cases hx : p.data.data[(y * b + x) * c + r]? with
    | none => exact Or.inl rfl
    | some v =>
      rcases h2 _ _ hx with h | h
      · exact Or.inl h
      · exact Or.inr (by rw [h])
  · exact Or.inl rfl

theorem slopeScheme_closed (t : Shallot ℝ) : (slopeScheme t).Closed where
  getData v c p h := slopeScheme_faded h (getData_faded v p)
  nanWhere m c p h := slopeScheme_faded h (nanWhere_faded m (fun _ => True) p fun _ _ => trivial)
  eraseAt i c p h := by
    intro hc a q ha hq
    cases ha
    obtain ⟨h1, h2⟩ := h hc p q rfl hq
    refine ⟨h1, fun j x hx => ?_⟩
    simp only [Shallot.eraseAt, Meth.modify_apply, List.getElem?_set] at hx
    split_ifs at hx
    · exact Or.inl (Option.some.inj hx).symm
    · exact h2 j x hx
  setMask v c p h := by
    intro hc a q ha hq
    cases ha
    rcases setMask_cases v p with ⟨m, -, -, -, e⟩ | ⟨⟨e', e⟩, -⟩
    · rw [e]; exact h hc p q rfl hq
    · rw [e]; exact h hc p q rfl hq
  noFit h := by rcases h with h | h <;> cases h
  newFit _ _ _ _ h := by rcases h with h | h <;> cases h
  newMap _ _ _ _ h := by rcases h with h | h <;> cases h
  gradGet v g h := by
    obtain ⟨x, h1, h2, h3⟩ := h
    have hf := getData_faded v g.prop
    refine ⟨x, h1, hf.shape.trans h2, fun i w hw => ?_⟩
    rcases hf.values i with h | ⟨h, -⟩
    · exact h3 i w (h ▸ hw)
    · simp only [h] at hw
      exact Or.inl (Option.some.inj hw).symm
  gradMask a b c d g h := by
    obtain ⟨x, h1, h2, h3⟩ := h
    refine ⟨x, (determineMask_position a b c d g).trans h1, ?_, ?_⟩ <;>
    rw [(determineMask_limits a b c d g).1]
    · exact h2
    · exact h3
  gradNew s x q hs h := by
    rw [new_blank] at h
    cases h
    obtain ⟨f1, f2⟩ := hs.frame
    refine ⟨x, rfl, ?_, fun i v hv => ?_⟩
    · show (s.gradientCube x).shape = _
      rw [(gradientCube_cubic s x).1, (gradientCube_cubic t x).1, f1]
    · have hv' : (s.gradientCube x).data[i]? = some v := hv
      have hi : i < (s.gradientCube x).data.length := (List.getElem?_eq_some_iff.1 hv').1
      rw [(gradientCube_cubic s x).2] at hi
      obtain ⟨u1, u2, u3, u4⟩ := unravel_spec hi
      obtain ⟨y, hy⟩ : ∃ y, y = (unravel s.params.gridShape.2.1 s.params.gridShape.2.2 i).1 := ⟨_, rfl⟩
      obtain ⟨z, hz⟩ : ∃ z, z = (unravel s.params.gridShape.2.1 s.params.gridShape.2.2 i).2.1 := ⟨_, rfl⟩
      obtain ⟨r, hr⟩ : ∃ r, r = (unravel s.params.gridShape.2.1 s.params.gridShape.2.2 i).2.2 := ⟨_, rfl⟩
      rw [← hy] at u1 u4
      rw [← hz] at u2 u4
      rw [← hr] at u3 u4
      rw [← u4]
      rw [← u4] at hv'
      unfold Shallot.gradientCube at hv' ⊢
      rw [← f1, ← f2]
      rw [cubeOf_get _ _ _ _ u1 u2 u3] at hv' ⊢
      obtain ⟨a1, a2⟩ := hs.props .fxMap (Or.inl rfl) _ _ rfl rfl
      obtain ⟨b1, b2⟩ := hs.props .fyMap (Or.inr rfl) _ _ rfl rfl
      have hv'' := Option.some.inj hv'
      rcases slope_at3 a1 a2 y z r with e1 | e1
      · rw [e1, diskGradient_unknown _ _ _ _ _ _ (Or.inl rfl)] at hv''
        exact Or.inl hv''.symm
      · rcases slope_at3 b1 b2 y z r with e2 | e2
        · rw [e2, diskGradient_unknown _ _ _ _ _ _ (Or.inr rfl)] at hv''
          exact Or.inl hv''.symm
        · rw [← e1, ← e2]
          exact Or.inr hv'

theorem slopeScheme_start (t : Shallot ℝ) (h : t.gradients = none) : (slopeScheme t).Holds t :=
  ⟨fun c _ p q hp hq => by
    rw [hp] at hq
    cases hq
    exact ⟨rfl, fun i x hx => Or.inr hx⟩, fun l hl => (by rw [h] at hl; cases hl), rfl, rfl⟩

theorem first_failing {α β ε : Type} {f : α → Except ε β} : ∀ l : List α, (∃ q ∈ l, ∀ w, f q ≠ .ok w) →
    ∃ pre q post, l = pre ++ q :: post ∧ (∀ h ∈ pre, ∃ w, f h = .ok w) ∧ ∀ w, f q ≠ .ok w
  | [], ⟨q, hq, _⟩ => by cases hq
  | a :: l, ⟨q, hq, hw⟩ => by
    by_cases ha : ∃ w, f a = .ok w
    · rcases List.mem_cons.1 hq with rfl | hq
      · obtain ⟨w, h⟩ := ha
        exact absurd h (hw w)
      · obtain ⟨pre, q', post, h1, h2, h3⟩ := first_failing l ⟨q, hq, hw⟩
        refine ⟨a :: pre, q', post, by rw [h1]; rfl, ?_, h3⟩
        intro h hh
        rcases List.mem_cons.1 hh with rfl | hh
        · exact ha
        · exact h2 h hh
    · exact ⟨[], a, l, rfl, by simp, by simpa using ha⟩

section
variable (minX maxX numX minY maxY numY maxRf numRf : PyVal ℝ) (g : GridParams ℝ)
    (hg : GridParams.new minX maxX numX minY maxY numY maxRf numRf = .ok g) (a b c d m : ℝ)
    (ha : IsNumber false minX (.fin a)) (hb : IsNumber false maxX (.fin b))
    (hc : IsNumber false minY (.fin c)) (hd : IsNumber false maxY (.fin d))
    (hm : IsNumber false maxRf (.fin m))
    (hext : g.extendable = true → 2 ≤ g.sliceShape.1 ∧ 2 ≤ g.sliceShape.2) (v k : PyVal ℝ)
    (s : Shallot ℝ) (g' : GridParams ℝ) (h : Shallot.new v k g = (.ok s, g'))
include hg ha hb hc hd hm hext h

/-- The gradients computed on the grid as it was built. -/
theorem cube_gradientAt (p : XF ℝ) (y x r : ℕ) (hy : y < s.params.gridShape.1)
    (hx : x < s.params.gridShape.2.1) (hr : r < s.params.gridShape.2.2) :
    GradientAt s y x r p ((s.gradientCube p).at3 y x r) := by
  obtain ⟨keep, hk, hmade⟩ := made_new _ _ _ _ _ _ _ _ g g' hg hext v k s h
  obtain ⟨n, hn⟩ := hmade.count
  obtain ⟨⟨b', hfrom⟩, -⟩ := made_report _ _ _ _ _ _ _ _ g hg a b c d m ha hb hc hd hm hext v k n hn keep hk s
    g' h
  obtain ⟨dx, dy, e1, e2, hl⟩ := C75_grid _ _ _ _ _ _ _ _ g hg a b c d m ha hb hc hd hm hext v k n hn keep hk
    s g' h y x r hy hx hr
  refine ⟨dx, dy, e1, e2, ?_⟩
  unfold Shallot.gradientCube
  rw [at3_cubeOf _ _ _ _ hy hx hr, hfrom.shear y x hy hx, getD_of_get _ _ _ e1, getD_of_get _ _ _ e2]
  rcases hl with ⟨h1, -, -, h2⟩ | ⟨fx, fy, a, i, t, h1, h2, h3, h4, h5, h6, h7, -, h8, h9, h10, -, -, -, h11,
    h12⟩
  · refine Or.inl ⟨h1, diskGradient_unknown _ _ _ _ _ _ h2⟩
  · right
    rw [h1, h2]
    by_cases hp : ∀ z : ℝ, p ≠ .fin z
    · left
      rw [shear_ok dx dy h11]
      exact ⟨hp, diskGradient_infinite p dx dy _ fx fy hp h7⟩
    · right
      push Not at hp
      obtain ⟨z, rfl⟩ := hp
      exact ⟨a, i, t, z, h3, h4, h5, rfl, diskGradient_tangent dx dy fx fy a i t z h11 h6 h7 h8 h9 h10 h12⟩

/-- **C94** A grid is built over finite coordinates; then any sequence of calls is made on it, with any
arguments and exceptions caught.  Every number in the cube of any of its gradients is the gradient, at
the position of that gradient, of the disk that the grid was built with at this grid point. -/
theorem C94_history (ops : List (GridOp ℝ)) (q : GGrad ℝ)
    (hq : q ∈ (runGrid ops s).gradients.getD []) :
    ∃ p : XF ℝ, q.position.num = p ∧ ∀ y x r, y < s.params.gridShape.1 → x < s.params.gridShape.2.1 →
      r < s.params.gridShape.2.2 →
        q.prop.data.at3 y x r = .nan ∨ GradientAt s y x r p (q.prop.data.at3 y x r) := by
  obtain ⟨keep, hk, hmade⟩ := made_new _ _ _ _ _ _ _ _ g g' hg hext v k s h
  obtain ⟨p, h1, h2, h3⟩ := holds_getD
    (runGrid_holds (slopeScheme_closed s) ops s (slopeScheme_start s hmade.nothing.1)) q hq
  refine ⟨p, by rw [h1]; rfl, fun y x r hy hx hr => ?_⟩
  have hat := cube_gradientAt _ _ _ _ _ _ _ _ g hg a b c d m ha hb hc hd hm hext v k s g' h p y x r hy hx hr
  have hcub := gradientCube_cubic s p
  rw [hcub.1] at h2
  rw [at3_get h2, List.getD_eq_getElem?_getD]
  rw [at3_get hcub.1, List.getD_eq_getElem?_getD] at hat
  cases hx' : q.prop.data.data[(y * s.params.gridShape.2.1 + x) * s.params.gridShape.2.2 + r]? with
  | none => exact Or.inl rfl
  | some w =>
    rcases h3 _ _ hx' with e | e
    · exact Or.inl e
    · rw [e] at hat
      exact Or.inr hat

/-- **C94, what `add_gradients` adds** As long as no scale factor of the grid has been replaced by NaN,
whatever else was called, a successful `add_gradients` adds one gradient for each time, in their order, at
the position `-time / duration`; every element of its cube is the gradient there of the disk of this grid
point, and NaN exactly as `GradientAt` says. -/
theorem C94_added (ops : List (GridOp ℝ)) (hfx : (runGrid ops s).fxMap.data = s.fxMap.data)
    (hfy : (runGrid ops s).fyMap.data = s.fyMap.data) (hready : (runGrid ops s).ready = true)
    (times lc errors transmissions : PyVal ℝ) (ht : Whole times) (hl : Whole lc) (he : Whole errors)
    (hr : Whole transmissions) (s' : Shallot ℝ)
    (hadd : Shallot.addGradients times lc errors transmissions (runGrid ops s) = (.ok (), s')) :
    ∃ (t : NpArr ℝ) (D : PyVal ℝ) (new : List (GGrad ℝ)), Floats times t ∧
      Duration (runGrid ops s) D ∧ s'.gradients = some ((runGrid ops s).gradients.getD [] ++ new) ∧
      new.length = t.data.length ∧
      ∀ (j : ℕ) (q : GGrad ℝ), new[j]? = some q → ∃ τ, t.data[j]? = some τ ∧
        q.position.num = τ.neg.div D.num ∧
        ∀ y x r, y < s.params.gridShape.1 → x < s.params.gridShape.2.1 → r < s.params.gridShape.2.2 →
          GradientAt s y x r (τ.neg.div D.num) (q.prop.data.at3 y x r) := by
  obtain ⟨keep, hk, hmade⟩ := made_new _ _ _ _ _ _ _ _ g g' hg hext v k s h
  obtain ⟨f1, f2⟩ := (runGrid_holds (slopeScheme_closed s) ops s
    (slopeScheme_start s hmade.nothing.1)).frame
  generalize runGrid ops s = s₁ at *
  rcases addGradients_cases times lc errors transmissions ht hl he hr s₁ with ⟨h', -⟩ | ⟨-, ⟨er, h'⟩, -⟩ |
    ⟨-, t, l, D, k1, k2, -, -, k3, ⟨e', r', scale, -, -, l1, l2, l3, -, h'⟩ | ⟨er, gs, -, h', -⟩⟩
  · rw [hready] at h'; cases h'
  · rw [h'] at hadd; cases hadd
  · rw [h'] at hadd
    cases hadd
    refine ⟨t, D, _, k1, k3, rfl, ?_, ?_⟩
    · simp only [rowsOf, List.length_map, List.length_zip]
      omega
    · intro j q hj
      rw [List.getElem?_map] at hj
      cases hrow : (rowsOf t.data l.data e'.data r'.data)[j]? with
      | none => rw [hrow] at hj; cases hj
      | some row =>
        rw [hrow] at hj
        cases hj
        have htime : t.data[j]? = some row.time := by
          unfold rowsOf at hrow
          rw [List.getElem?_map] at hrow
          cases hz : (t.data.zip (l.data.zip (e'.data.zip r'.data)))[j]? with
          | none => rw [hz] at hrow; cases hrow
          | some w =>
            rw [hz] at hrow
            cases hrow
            exact (List.getElem?_zip_eq_some.1 hz).1
        refine ⟨row.time, htime, ?_, fun y x r hy hx hr => ?_⟩
        · unfold gradientOf measure
          rw [determineMask_position]
          rfl
        · have hcube : (gradientOf s₁ D scale row).2.prop.data = s.gradientCube (row.time.neg.div D.num) := by
            unfold gradientOf measure
            rw [(determineMask_limits _ _ _ _ _).1, blank_congr f1 f2 hfx hfy]
            rfl
          rw [hcube]
          exact cube_gradientAt _ _ _ _ _ _ _ _ g hg a b c d m ha hb hc hd hm hext v k s g' h _ y x r hy hx hr
  · rw [h'] at hadd; cases hadd

/-- **C94, what `get_gradients` returns** After any sequence of calls, the numbers in the cubes that
`get_gradients` returns, masked or not, are the gradients of the disks at the positions that it returns. -/
theorem C94_reported (ops : List (GridOp ℝ)) (masked own : Bool) (out : Shallot.Gradients ℝ)
    (s' : Shallot ℝ)
    (hout : Shallot.getGradients (.bool masked) (.bool own) (runGrid ops s) = (.ok out, s')) (j : ℕ)
    (p : XF ℝ) (cube : Nd ℝ) (hp : out.positions[j]? = some p) (hcube : out.cubes[j]? = some cube)
    (y x r : ℕ) (hy : y < s.params.gridShape.1) (hx : x < s.params.gridShape.2.1)
    (hr : r < s.params.gridShape.2.2) :
    cube.at3 y x r = .nan ∨ GradientAt s y x r p (cube.at3 y x r) := by
  obtain ⟨keep, hk, hmade⟩ := made_new _ _ _ _ _ _ _ _ g g' hg hext v k s h
  have hsound := runGrid_sound ops s hmade.sound
  have hhist := C94_history _ _ _ _ _ _ _ _ g hg a b c d m ha hb hc hd hm hext v k s g' h ops
  have hpar := (runGrid_owned ops s hmade.owned).params
  generalize runGrid ops s = s₁ at *
  cases hl : s₁.gradients with
  | none =>
    rw [(C89_raises s₁ hsound masked own).1 hl] at hout
    cases hout
  | some l =>
  have hsc : ∀ q ∈ l, ∃ w, q.scaled = .ok w := by
    by_contra hno
    push Not at hno
    obtain ⟨pre, q, post, h1, h2, h3⟩ := first_failing l hno
    obtain ⟨e, he⟩ : ∃ e, q.scaled = .error e := by
      cases hq : q.scaled with
      | error e => exact ⟨e, rfl⟩
      | ok w => exact absurd hq (h3 w)
    have := (C89_raises s₁ hsound masked own).2 l hl pre post q e h1 h2 he
    rw [hout] at this
    cases this
  choose! f hf using hsc
  obtain ⟨out', s'', h1, l1, -, -, l2, hv⟩ := C89_values s₁ hsound l hl masked own f hf
  rw [hout] at h1
  cases h1
  have hj : j < l.length := by
    rw [← l1]; exact (List.getElem?_eq_some_iff.1 hp).1
  obtain ⟨p1, -, -, -, w, e1, e2⟩ := hv j l[j] (List.getElem?_eq_getElem hj)
  rw [hp] at p1
  rw [hcube] at e1
  cases p1
  cases e1
  obtain ⟨p', q1, q2⟩ := hhist l[j] (by rw [hl]; exact List.getElem_mem hj)
  subst q1
  have hq := q2 y x r hy hx hr
  have hs := hsound.gradients l hl l[j] (List.getElem_mem hj)
  have hb := e2.shape
  rw [hpar] at hb hs
  have hc' := hs.data.1
  rw [at3_get hb, List.getD_eq_getElem?_getD]
  rw [at3_get hc', List.getD_eq_getElem?_getD] at hq
  by_cases hmark : (own = true ∧ Marked l[j].prop.mask ((y * s.params.gridShape.2.1 + x) *
      s.params.gridShape.2.2 + r)) ∨ (masked = true ∧ MaskedAt s₁ ((y * s.params.gridShape.2.1 + x) *
      s.params.gridShape.2.2 + r))
  · rw [e2.hidden _ (by rw [e2.length, hpar]; exact flat_lt hy hx hr) hmark]
    exact Or.inl rfl
  · rw [e2.shown _ hmark]
    exact hq

end

/-- A grid, a history and a measurement that meet the hypotheses of `C94_added`, and with the state after
it those of `C94_history`; above the star the gradient is a number greater than 0, the tangent of the disk
that is there. -/
theorem throwAway_tangent : ∃ (s s₁ s₂ : Shallot ℝ) (q : GGrad ℝ),
    Shallot.new (.int 100) (.bool false) throwAway = (.ok s, s.params) ∧
    s₁ = runGrid [.eclipse (.int 1) (.int 1) (.int 0)] s ∧ s₁.ready = true ∧
    s₁.fxMap.data = s.fxMap.data ∧ s₁.fyMap.data = s.fyMap.data ∧
    addCall [probe (1 / 4) (1 / 4) 1] s₁ = (.ok (), s₂) ∧
    q ∈ (runGrid [.eclipse (.int 1) (.int 1) (.int 0), .add (column [.fin (1 / 4)]) (column [.fin (1 / 4)])
      (column [.fin 1]) (column [.fin 1])] s).gradients.getD [] ∧
    ∃ dx dy a i t w : ℝ, s.params.dx.data[1]? = some (.fin dx) ∧ s.params.dy.data[2]? = some (.fin dy) ∧
      q.prop.data.at3 2 1 1 = .fin w ∧ 0 < w ∧ TangentTo dx dy a i t (-(1 / 4)) (.fin w) := by
  obtain ⟨s, s₁, h1, h2, h3, h4, hgs, hs, hgs₁, hr, hd, ⟨k, hk, hk2, ho⟩, -, hg, -, -, hv⟩ := throwAway_axis_from
  obtain ⟨hp, q, hq1, hq2, -, -, -⟩ := probe_ok s₁ k (1 / 4) (1 / 4) 1 hk hk2 (by norm_num) (by norm_num)
    (by norm_num)
  have hcall : addCall [probe (1 / 4) (1 / 4) 1] s₁ = (.ok (), _) := (addCall_ok_iff _ s₁ _ hr).2
    ⟨_, _, hd, ho, by simp only [List.mem_singleton, forall_eq]; rw [hq1]; exact ⟨hp, rfl⟩, rfl⟩
  have hmem : q ∈ (runGrid [.eclipse (.int 1) (.int 1) (.int 0), .add (column [.fin (1 / 4)])
      (column [.fin (1 / 4)]) (column [.fin 1]) (column [.fin 1])] s).gradients.getD [] := by
    show q ∈ (addCall [probe (1 / 4) (1 / 4) 1]
      (runGrid [.eclipse (.int 1) (.int 1) (.int 0)] s)).2.gradients.getD []
    rw [← h2, hcall, hg]
    simp only [Option.getD_none, List.nil_append, List.map_cons, List.map_nil, hq1, Option.getD_some,
      List.mem_singleton]
  obtain ⟨w, w1, -, w2⟩ := hv 22 (Or.inr rfl) (-(1 / 4))
  have hat : q.prop.data.at3 2 1 1 = .fin w := by
    rw [hq2, at3_get (gradientCube_cubic s₁ _).1, hgs₁]
    exact getD_of_get _ _ _ w1
  refine ⟨s, s₁, _, q, h1, h2, hr, by rw [h3], by rw [h4], hcall, hmem, ?_⟩
  have hext : throwAway.extendable = true → 2 ≤ throwAway.sliceShape.1 ∧ 2 ≤ throwAway.sliceShape.2 :=
    fun _ => ⟨le_rfl, le_rfl⟩
  obtain ⟨p, e1, e2⟩ := C94_history _ _ _ _ _ _ _ _ throwAway throwAway_new 0 1 0 1 2
    (Or.inl ⟨0, .int 0, by simp⟩) (Or.inl ⟨1, .int 1, by simp⟩) (Or.inl ⟨0, .int 0, by simp⟩)
    (Or.inl ⟨1, .int 1, by simp⟩) (Or.inl ⟨2, .int 2, by simp⟩) hext _ _ s _ h1 _ q hmem
  have hpos : q.position.num = .fin (-(1 / 4)) := by
    have := congrArg (fun z => z.2.position.num) hq1
    simp only at this
    rw [← this]
    unfold gradientOf measure
    rw [determineMask_position]
    show (XF.fin (1 / 4)).neg.div (PyVal.int 1 : PyVal ℝ).num = _
    simp [PyVal.num, XF.neg, XF.div]
  rw [hpos] at e1
  subst e1
  have := e2 2 1 1 (by rw [hgs]; norm_num) (by rw [hgs]; norm_num) (by rw [hgs]; norm_num)
  rw [hat] at this
  rcases this with h | ⟨dx, dy, f1, f2, ⟨-, h⟩ | ⟨-, h⟩ | ⟨a, i, t, p, -, -, -, h, f3⟩⟩
  · cases h
  · cases h
  · cases h
  · cases h
    exact ⟨dx, dy, a, i, t, w, f1, f2, hat, w2 (by norm_num), f3⟩

end Beyonce
