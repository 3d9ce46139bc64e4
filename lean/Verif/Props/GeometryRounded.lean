import Verif.GeometryRounded
import Verif.Props.Near
import Verif.Props.Geometry

/-!
# Properties C104 and C105: the geometry of the disks in floating point
-/

set_option linter.unusedSectionVars false

namespace Beyonce
open Spec

/-- A floating point library whose rounding and functions have a relative error of at most `u`; rounding
keeps the order, and 1 is a floating point number. -/
structure Spec.Accurate (L : FloatLib ℝ) (u : ℝ) : Prop where
  nonneg : 0 ≤ u
  rnd : Rounds L.rnd u
  mono : Monotone L.rnd
  one : L.rnd 1 = 1
  sqrt : ∀ x, 0 ≤ x → RelNear u (L.sqrt x) √x
  sin : ∀ x, RelNear u (L.sin x) (Real.sin x)
  cos : ∀ x, RelNear u (L.cos x) (Real.cos x)
  arctan2 : ∀ y x, RelNear u (L.arctan2 y x) (Complex.arg ⟨x, y⟩)
  arccos : ∀ x, -1 ≤ x → x ≤ 1 → RelNear u (L.arccos x) (Real.arccos x)
  hypot : ∀ x y, RelNear u (L.hypot x y) √(x ^ 2 + y ^ 2)
  pi : RelNear u L.pi Real.pi

/-! ## Exact arithmetic is the model without rounding -/

section
variable {K : Type} [Field K] [LinearOrder K] [RealFns K]

theorem round_same (a : XF K) : a.round (fun x => x) = a := by cases a <;> rfl

theorem exact_hypot (a b : XF K) : (FloatLib.exact : FloatLib K).hypotX a b = XF.hypot a b := by
  cases a <;> cases b <;> rfl

theorem determineFx_exact (dy fy : XF K) :
    GeometryRounded.determineFx .exact dy fy = Geometry.determineFx dy fy := by
  simp only [GeometryRounded.determineFx, Geometry.determineFx, FloatLib.sub, FloatLib.mul, FloatLib.sq,
    FloatLib.add, FloatLib.div, FloatLib.sqrtX, XF.sq]
  simp only [FloatLib.exact, round_same]
  rfl

theorem determineFy_exact (dy fx : XF K) :
    GeometryRounded.determineFy .exact dy fx = Geometry.determineFy dy fx := by
  simp only [GeometryRounded.determineFy, Geometry.determineFy, FloatLib.sub, FloatLib.mul, FloatLib.sq,
    FloatLib.add, FloatLib.div, FloatLib.sqrtX, XF.sq]
  simp only [FloatLib.exact, round_same]
  rfl

theorem shear_exact (dx dy : XF K) : GeometryRounded.shear .exact dx dy = Geometry.shear dx dy := by
  simp only [GeometryRounded.shear, Geometry.shear, FloatLib.div]
  simp only [FloatLib.exact, round_same]

theorem circularRadius_exact (dy : XF K) :
    GeometryRounded.circularRadius .exact dy = Geometry.circularRadius dy := exact_hypot _ _

theorem vertexAngles_exact (fx fy s : XF K) :
    GeometryRounded.vertexAngles .exact fx fy s = Geometry.vertexAngles fx fy s := by
  simp only [GeometryRounded.vertexAngles, Geometry.vertexAngles, FloatLib.sub, FloatLib.mul,
    FloatLib.sq, FloatLib.add, FloatLib.div, FloatLib.arctan2X, XF.sq]
  simp only [FloatLib.exact, round_same, XF.pi]
  rfl

theorem xyAt_exact (fx fy a s r : XF K) :
    GeometryRounded.xyAt .exact fx fy a s r = Geometry.xyAt fx fy a s r := by
  simp only [GeometryRounded.xyAt, Geometry.xyAt, FloatLib.sub, FloatLib.mul, FloatLib.cosX,
    FloatLib.sinX]
  simp only [FloatLib.exact, round_same]
  rfl

theorem diskParameters_exact (hpi : (RealFns.pi : K) ≠ 0) (fx fy s r : XF K) :
    GeometryRounded.diskParameters .exact fx fy s r = Geometry.diskParameters fx fy s r := by
  simp only [GeometryRounded.diskParameters, Geometry.diskParameters, vertexAngles_exact, xyAt_exact,
    exact_hypot, FloatLib.mul, FloatLib.arctan2X, FloatLib.add, FloatLib.div, FloatLib.arccosX,
    FloatLib.rad2deg]
  simp only [FloatLib.exact, round_same, XF.pi, XF.rad2deg, XF.div_fin _ _ hpi]
  rfl

end

/-! ## Scale factors -/

section
variable {f : ℝ → ℝ} {u : ℝ}

/-- The difference of two computed numbers. -/
theorem rounded_sub (hr : Rounds f u) (hu : 0 ≤ u) (hu1 : 12 * u ≤ 1) {p q P Q : ℝ} (hp : RelNear (9 * u) p P)
    (hq : RelNear (3 * u) q Q) (hQ : 0 ≤ Q) (hPQ : Q ≤ P) : |f (p - q) - (P - Q)| ≤ 14 * u * P := by
  have h1 : |p - P| ≤ 9 * u * |P| := hp
  have h2 : |q - Q| ≤ 3 * u * |Q| := hq
  rw [abs_of_nonneg (hQ.trans hPQ)] at h1
  rw [abs_of_nonneg hQ] at h2
  have hP := hQ.trans hPQ
  have h3 : |(p - q) - (P - Q)| ≤ 12 * u * P := by
    have e : (p - q) - (P - Q) = (p - P) - (q - Q) := by ring
    rw [e]
    refine (abs_sub _ _).trans ?_
    have : u * Q ≤ u * P := mul_le_mul_of_nonneg_left hPQ hu
    linarith
  have h4 := hr (p - q)
  have h5 : |p - q| ≤ P + 12 * u * P := by
    have := abs_sub_abs_le_abs_sub (p - q) (P - Q)
    rw [abs_of_nonneg (sub_nonneg.2 hPQ)] at this
    linarith
  have h6 := abs_sub_le (f (p - q)) (p - q) (P - Q)
  have h7 : u * |p - q| ≤ u * (2 * P) := by
    refine mul_le_mul_of_nonneg_left (h5.trans ?_) hu
    have := mul_le_mul_of_nonneg_right hu1 hP
    linarith
  linarith

/-- `4 * dy**2`. -/
theorem rounded_four (hr : Rounds f u) (hu : 0 ≤ u) (hu1 : 40 * u ≤ 1) (d : ℝ) :
    RelNear (3 * u) (f (4 * f (d * d))) (4 * (d * d)) :=
  ((RelNear.rnd_self hr _).mul_left 4).rnd hr hu (by linarith) (by norm_num)

/-- `g**2 * (1 + 4 * dy**2)`. -/
theorem rounded_product (hr : Rounds f u) (hu : 0 ≤ u) (hu1 : 40 * u ≤ 1) (d g : ℝ) :
    RelNear (9 * u) (f (f (g * g) * f (1 + f (4 * f (d * d))))) (g * g * (1 + 4 * (d * d))) := by
  have hd := mul_self_nonneg d
  have h1 := (rounded_four hr hu hu1 d).add_left zero_le_one (by linarith) (by linarith)
  have h2 : RelNear (5 * u) (f (1 + f (4 * f (d * d)))) (1 + 4 * (d * d)) :=
    h1.rnd hr hu (by linarith) (by norm_num)
  have h3 : RelNear (7 * u) (f (g * g) * f (1 + f (4 * f (d * d)))) (g * g * (1 + 4 * (d * d))) :=
    (RelNear.rnd_self hr (g * g)).mul h2 hu (by norm_num) (by norm_num) (by linarith) (by norm_num)
  exact h3.rnd hr hu (by linarith) (by norm_num)

end

namespace FloatLib
variable (L : FloatLib ℝ)
theorem add_fin (a b : ℝ) : L.add (.fin a) (.fin b) = .fin (L.rnd (a + b)) := rfl
theorem sub_fin (a b : ℝ) : L.sub (.fin a) (.fin b) = .fin (L.rnd (a - b)) := by
  rw [sub_eq_add_neg]; rfl
theorem mul_fin (a b : ℝ) : L.mul (.fin a) (.fin b) = .fin (L.rnd (a * b)) := rfl
theorem sq_fin (a : ℝ) : L.sq (.fin a) = .fin (L.rnd (a * a)) := rfl
theorem div_fin (a b : ℝ) (h : b ≠ 0) : L.div (.fin a) (.fin b) = .fin (L.rnd (a / b)) := by
  unfold div; rw [XF.div_fin _ _ h]; rfl
theorem sqrt_fin (a : ℝ) (h : 0 ≤ a) : L.sqrtX (.fin a) = .fin (L.sqrt a) := by
  simp [sqrtX, XF.sqrt, not_lt.2 h]; rfl
theorem sin_fin (a : ℝ) : L.sinX (.fin a) = .fin (L.sin a) := rfl
theorem cos_fin (a : ℝ) : L.cosX (.fin a) = .fin (L.cos a) := rfl
theorem arctan2_fin (a b : ℝ) : L.arctan2X (.fin a) (.fin b) = .fin (L.arctan2 a b) := rfl
theorem hypot_fin (a b : ℝ) : L.hypotX (.fin a) (.fin b) = .fin (L.hypot a b) := rfl
theorem arccos_fin (a : ℝ) (h : -1 ≤ a) (h' : a ≤ 1) : L.arccosX (.fin a) = .fin (L.arccos a) := by
  simp [arccosX, XF.arccos, not_lt.2 h, not_lt.2 h']; rfl
end FloatLib

/-- The width of the disk along the star path, squared and in units of the eclipse: it is the condition
number of the scale factors. -/
def Spec.width (dy fx : ℝ) : ℝ := fx ^ 2 * (1 + 4 * dy ^ 2)

/-- C104 (partial): the computed `fx` is the true one up to a relative error of `34 u` times the squared
width of the disk.  Missing: disks so wide that this exceeds 1, where it may be NaN (`C104_false_fx`). -/
theorem C104_fx_partial (L : FloatLib ℝ) (u : ℝ) (hL : Accurate L u) (dy fy fx : ℝ) (hy : 0 < fy)
    (h : Geometry.determineFx (.fin dy) (.fin fy) = .fin fx) (hw : 40 * u * width dy fx ≤ 1) :
    ∃ fx', GeometryRounded.determineFx L (.fin dy) (.fin fy) = .fin fx' ∧
      RelNear (34 * u * width dy fx) fx' fx ∧ 0 < fx ∧ 0 < fx' := by
  have hu := hL.nonneg
  have hr := hL.rnd
  have hd : 0 < fy ^ 2 * (1 + 4 * dy ^ 2) - 4 * dy ^ 2 := by
    by_contra hle
    rw [(C54_fx dy fy hy).1.2 (by linarith)] at h
    cases h
  rw [determineFx_fin dy fy hd] at h
  injection h with h
  set D := fy ^ 2 * (1 + 4 * dy ^ 2) - 4 * dy ^ 2 with hD
  set P := fy * fy * (1 + 4 * (dy * dy)) with hP
  set Q := 4 * (dy * dy) with hQ
  have hdd := mul_self_nonneg dy
  have e : P - Q = D := by rw [hP, hQ, hD]; ring
  have hw' : width dy fx * D = P := by
    unfold width
    rw [← h, div_pow, Real.sq_sqrt hd.le, hP, hQ]
    field_simp
  have hx : 0 < fx := by rw [← h]; exact div_pos hy (Real.sqrt_pos.2 hd)
  have hw1 : 1 ≤ width dy fx := by
    by_contra hlt
    have : width dy fx * D < 1 * D := mul_lt_mul_of_pos_right (not_le.1 hlt) hd
    rw [hw', one_mul, ← e] at this
    have : 0 ≤ Q := by positivity
    linarith
  set κ := width dy fx with hκ
  have hu1 : 40 * u ≤ 1 := by
    have : 40 * u * 1 ≤ 40 * u * κ := mul_le_mul_of_nonneg_left hw1 (by positivity)
    linarith
  have hku : 0 ≤ κ * u := by positivity
  have huk : u ≤ κ * u := by nlinarith
  have b := rounded_sub hr hu (by linarith) (rounded_product hr hu hu1 dy fy) (rounded_four hr hu hu1 dy)
    (by positivity : 0 ≤ Q) (by linarith)
  rw [← hP, ← hQ, e] at b
  set D' := L.rnd (L.rnd (L.rnd (fy * fy) * L.rnd (1 + L.rnd (4 * L.rnd (dy * dy)))) -
    L.rnd (4 * L.rnd (dy * dy))) with hD'
  have n1 : RelNear (14 * (κ * u)) D' D := by
    unfold RelNear
    rw [abs_of_pos hd]
    calc _ ≤ 14 * u * P := b
      _ = _ := by rw [← hw']; ring
  have p1 : 0 < D' := n1.pos hd (by linarith)
  have n2 : RelNear (28 * κ * u) (1 / D') (1 / D) := (n1.inv hd (by linarith) (by linarith)).mono (by linarith)
  have n3 : RelNear (30 * κ * u) (L.rnd (1 / D')) (1 / D) := n2.rnd hr hu (by linarith) (by linarith)
  have p3 : 0 ≤ L.rnd (1 / D') := n3.nonneg (by positivity) (by linarith)
  have n4 : RelNear (30 * κ * u) √(L.rnd (1 / D')) √(1 / D) := n3.sqrt p3 (by positivity)
  have n5 : RelNear (32 * κ * u) (L.sqrt (L.rnd (1 / D'))) √(1 / D) :=
    RelNear.trans (hL.sqrt _ p3) hu n4 (by linarith) (by linarith)
  have n6 : RelNear (34 * κ * u) (L.rnd (L.sqrt (L.rnd (1 / D')) * fy)) (√(1 / D) * fy) :=
    (n5.mul_right fy).rnd hr hu (by linarith) (by linarith)
  have e6 : √(1 / D) * fy = fx := by
    rw [← h, Real.sqrt_div zero_le_one, Real.sqrt_one]; ring
  rw [e6] at n6
  refine ⟨_, ?_, n6.mono (by linarith), hx, n6.pos hx (by linarith)⟩
  unfold GeometryRounded.determineFx
  simp only [L.sq_fin, L.mul_fin, L.add_fin, L.sub_fin, XF.le_fin, decide_eq_true_eq]
  rw [← hD', if_neg (not_le.2 p1), L.div_fin _ _ p1.ne', L.sqrt_fin _ p3, L.mul_fin]

/-- C104 (partial): the computed `fy` is the true one up to a relative error of `40 u` times
`width / (width - 1)`.  Missing: disks that are hardly wider than the eclipse, with a centre close to the
star path (`C104_false_fy`). -/
theorem C104_fy_partial (L : FloatLib ℝ) (u : ℝ) (hL : Accurate L u) (dy fx fy : ℝ) (hx : 0 < fx)
    (h0 : ¬ (dy = 0 ∧ fx = 1)) (h : Geometry.determineFy (.fin dy) (.fin fx) = .fin fy)
    (hw : 200 * u * width dy fx ≤ width dy fx - 1) (h1 : 1 < width dy fx) :
    ∃ fy', GeometryRounded.determineFy L (.fin dy) (.fin fx) = .fin fy' ∧
      RelNear (40 * u * (width dy fx / (width dy fx - 1))) fy' fy := by
  have hu := hL.nonneg
  have hr := hL.rnd
  have hd : 0 < fx ^ 2 * (1 + 4 * dy ^ 2) - 1 := by unfold width at h1; linarith
  rw [determineFy_fin dy fx hd h0] at h
  injection h with h
  have eP : fx * fx * (1 + 4 * (dy * dy)) = width dy fx := by unfold width; ring
  have eD : fx ^ 2 * (1 + 4 * dy ^ 2) - 1 = width dy fx - 1 := rfl
  rw [eD] at h hd
  set P := width dy fx with hP
  set κ := P / (P - 1) with hκ
  have hk : κ * (P - 1) = P := div_mul_cancel₀ _ hd.ne'
  have hk1 : 1 ≤ κ := (one_le_div hd).2 (by linarith)
  have hw' : 200 * u * κ ≤ 1 := by
    rw [hκ, ← mul_div_assoc, div_le_one hd]; exact hw
  have hu1 : 200 * u ≤ 1 := by
    have : 200 * u * 1 ≤ 200 * u * κ := mul_le_mul_of_nonneg_left hk1 (by positivity)
    linarith
  have hku : 0 ≤ κ * u := by positivity
  have huk : u ≤ κ * u := by nlinarith
  have b := rounded_sub hr hu (by linarith) (rounded_product hr hu (by linarith) dy fx)
    (RelNear.refl 1 (by linarith : 0 ≤ 3 * u)) zero_le_one (by rw [eP]; linarith)
  rw [eP] at b
  set D' := L.rnd (L.rnd (L.rnd (fx * fx) * L.rnd (1 + L.rnd (4 * L.rnd (dy * dy)))) - 1) with hD'
  have n1 : RelNear (14 * (κ * u)) D' (P - 1) := by
    unfold RelNear
    rw [abs_of_pos hd]
    calc _ ≤ 14 * u * P := b
      _ = 14 * u * (κ * (P - 1)) := by rw [hk]
      _ = _ := by ring
  have p1 : 0 < D' := n1.pos hd (by linarith)
  have n2 : RelNear (28 * κ * u) (1 / D') (1 / (P - 1)) :=
    (n1.inv hd (by linarith) (by linarith)).mono (by linarith)
  have m1 : RelNear (3 * u) (L.rnd (4 * L.rnd (fx * fx))) (4 * (fx * fx)) :=
    rounded_four hr hu (by linarith) fx
  have m2 : RelNear (5 * u) (L.rnd (4 * L.rnd (fx * fx)) * L.rnd (dy * dy)) (4 * (fx * fx) * (dy * dy)) :=
    m1.mul (RelNear.rnd_self hr _) hu (by norm_num) (by norm_num) (by linarith) (by norm_num)
  have m3 : RelNear (7 * u) (L.rnd (L.rnd (4 * L.rnd (fx * fx)) * L.rnd (dy * dy)))
      (4 * (fx * fx) * (dy * dy)) := m2.rnd hr hu (by linarith) (by norm_num)
  set N' := L.rnd (L.rnd (4 * L.rnd (fx * fx)) * L.rnd (dy * dy)) with hN'
  have n3 : RelNear (36 * κ * u) (N' * (1 / D')) (4 * (fx * fx) * (dy * dy) * (1 / (P - 1))) :=
    m3.mul n2 hu (by norm_num) (by linarith) (by linarith) (by linarith)
  rw [mul_one_div, mul_one_div] at n3
  have n4 : RelNear (38 * κ * u) (L.rnd (N' / D')) (4 * (fx * fx) * (dy * dy) / (P - 1)) :=
    n3.rnd hr hu (by linarith) (by linarith)
  have q4 : 0 ≤ 4 * (fx * fx) * (dy * dy) / (P - 1) :=
    div_nonneg (mul_nonneg (by positivity) (mul_self_nonneg dy)) hd.le
  have p4 : 0 ≤ L.rnd (N' / D') := n4.nonneg q4 (by linarith)
  have n5 : RelNear (40 * κ * u) (L.sqrt (L.rnd (N' / D'))) √(4 * (fx * fx) * (dy * dy) / (P - 1)) :=
    RelNear.trans (hL.sqrt _ p4) hu (n4.sqrt p4 q4) (by linarith) (by linarith)
  have e5 : 4 * (fx * fx) * (dy * dy) = 4 * fx ^ 2 * dy ^ 2 := by ring
  rw [e5, h] at n5
  refine ⟨_, ?_, n5.mono (by linarith)⟩
  unfold GeometryRounded.determineFy
  simp only [L.sq_fin, L.mul_fin, L.add_fin, L.sub_fin, XF.le_fin, decide_eq_true_eq, XF.eqb_fin,
    Bool.and_eq_true, h0, if_false]
  rw [← hD', if_neg (not_le.2 p1), L.div_fin _ _ p1.ne', ← hN', L.sqrt_fin _ p4]

/-- C104 (negation): in binary64 the scale factor of the circle is lost if its centre is far from the
star path, whatever numpy's functions give. -/
theorem C104_false_fx :
    (∀ L : FloatLib ℚ, L.rnd = toDouble →
      GeometryRounded.determineFx L (.fin (2 ^ 27)) (.fin 1) = .nan) ∧
    Geometry.determineFx (.fin (2 ^ 27 : ℝ)) (.fin 1) = .fin 1 := by
  constructor
  · intro L hL
    have h : XF.le (L.sub (L.mul (L.sq (.fin 1)) (L.add (.fin 1) (L.mul (.fin 4) (L.sq (.fin (2 ^ 27))))))
        (L.mul (.fin 4) (L.sq (.fin (2 ^ 27))))) (.fin 0) = true := by
      simp only [FloatLib.sub, FloatLib.mul, FloatLib.sq, FloatLib.add, hL]
      decide +kernel
    unfold GeometryRounded.determineFx
    simp only [h, if_true]
    rfl
  · rw [determineFx_fin _ _ (by norm_num)]
    norm_num

/-- C104 (negation): and if it is very close to the star path. -/
theorem C104_false_fy :
    (∀ L : FloatLib ℚ, L.rnd = toDouble →
      GeometryRounded.determineFy L (.fin (1 / 2 ^ 28)) (.fin 1) = .nan) ∧
    Geometry.determineFy (.fin (1 / 2 ^ 28 : ℝ)) (.fin 1) = .fin 1 := by
  constructor
  · intro L hL
    have h : XF.le (L.sub (L.mul (L.sq (.fin 1)) (L.add (.fin 1) (L.mul (.fin 4)
        (L.sq (.fin (1 / 2 ^ 28)))))) (.fin 1)) (.fin 0) = true := by
      simp only [FloatLib.sub, FloatLib.mul, FloatLib.sq, FloatLib.add, hL]
      decide +kernel
    have h0 : (XF.eqb (.fin (1 / 2 ^ 28 : ℚ)) (.fin 0) && XF.eqb (.fin (1 : ℚ)) (.fin 1)) = false := by
      decide +kernel
    unfold GeometryRounded.determineFy
    simp only [h, h0, if_true, Bool.false_eq_true, if_false]
  · rw [determineFy_fin _ _ (by norm_num) (by norm_num)]
    norm_num

end Beyonce
