import Verif.Props.AxesRounded
import Mathlib.Algebra.Order.Round
import Mathlib.Data.Int.Log

/-!
# A library of binary64 arithmetic

Numbers with 53 binary digits and any exponent, and functions that are correctly rounded: the example to
which the theorems on rounding apply.
-/

set_option linter.unusedSectionVars false

namespace Beyonce
open Spec Real

/-- The power of two below a number, over `2 ^ 52`. -/
noncomputable def ulp (x : ℝ) : ℝ := 2 ^ (Int.log 2 x - 52)

/-- The nearest number of 53 binary digits, for positive numbers. -/
noncomputable def nearest (x : ℝ) : ℝ := round (x / ulp x) * ulp x

/-- The nearest number of 53 binary digits. -/
noncomputable def double (x : ℝ) : ℝ :=
  if x < 0 then -nearest (-x) else if x = 0 then 0 else nearest x

theorem ulp_pos (x : ℝ) : 0 < ulp x := zpow_pos (by norm_num) _

theorem ulp_lower (x : ℝ) : (2 : ℝ) ^ Int.log 2 x = ((2 ^ 52 : ℤ) : ℝ) * ulp x := by
  unfold ulp
  rw [zpow_sub₀ (by norm_num)]
  push_cast
  field_simp
  norm_num

theorem ulp_upper (x : ℝ) : (2 : ℝ) ^ (Int.log 2 x + 1) = ((2 ^ 53 : ℤ) : ℝ) * ulp x := by
  rw [zpow_add₀ (by norm_num), ulp_lower]
  push_cast
  ring

theorem log_le (x : ℝ) (hx : 0 < x) : (2 : ℝ) ^ Int.log 2 x ≤ x := by
  exact_mod_cast Int.zpow_log_le_self (b := 2) (by norm_num) hx

theorem lt_log (x : ℝ) : x < (2 : ℝ) ^ (Int.log 2 x + 1) := by
  exact_mod_cast Int.lt_zpow_succ_log_self (b := 2) (by norm_num) x

theorem round_le_round {x y : ℝ} (h : x ≤ y) : round x ≤ round y := by
  rw [round_eq, round_eq]
  exact Int.floor_le_floor (by linarith)

theorem nearest_error {x : ℝ} (hx : 0 < x) : |nearest x - x| ≤ 1 / 2 ^ 53 * x := by
  unfold nearest
  have hu := ulp_pos x
  have h1 := abs_sub_round (x / ulp x)
  have e : round (x / ulp x) * ulp x - x = (round (x / ulp x) - x / ulp x) * ulp x := by
    field_simp
  rw [e, abs_mul, abs_of_pos hu, abs_sub_comm]
  have h2 := mul_le_mul_of_nonneg_right h1 hu.le
  have h3 := log_le x hx
  rw [ulp_lower] at h3
  push_cast at h3
  linarith

theorem nearest_between {x : ℝ} (hx : 0 < x) :
    (2 : ℝ) ^ Int.log 2 x ≤ nearest x ∧ nearest x ≤ (2 : ℝ) ^ (Int.log 2 x + 1) := by
  have h1 := log_le x hx
  have h2 := lt_log x
  have hu := ulp_pos x
  unfold nearest
  rw [ulp_lower] at h1 ⊢
  rw [ulp_upper] at h2 ⊢
  constructor
  · apply mul_le_mul_of_nonneg_right _ hu.le
    have := round_le_round ((le_div_iff₀ hu).2 h1)
    rw [round_intCast] at this
    exact_mod_cast this
  · apply mul_le_mul_of_nonneg_right _ hu.le
    have := round_le_round ((div_le_iff₀ hu).2 h2.le)
    rw [round_intCast] at this
    exact_mod_cast this

theorem nearest_pos {x : ℝ} (hx : 0 < x) : 0 < nearest x :=
  (zpow_pos (by norm_num) _).trans_le (nearest_between hx).1

theorem nearest_mono {x y : ℝ} (hx : 0 < x) (h : x ≤ y) : nearest x ≤ nearest y := by
  have hy := hx.trans_le h
  rcases lt_or_eq_of_le (Int.log_mono_right (b := 2) hx h) with h1 | h1
  · refine (nearest_between hx).2.trans (le_trans ?_ (nearest_between hy).1)
    exact zpow_le_zpow_right₀ (by norm_num) (by omega)
  · have hu := ulp_pos y
    have e : ulp x = ulp y := by unfold ulp; rw [h1]
    unfold nearest
    rw [e]
    apply mul_le_mul_of_nonneg_right _ hu.le
    exact_mod_cast round_le_round (div_le_div_of_nonneg_right h hu.le)

theorem double_rounds : Rounds double (1 / 2 ^ 53) := by
  intro x
  unfold double
  split_ifs with h1 h2
  · have := nearest_error (neg_pos.2 h1)
    rw [abs_of_neg h1, show -nearest (-x) - x = -(nearest (-x) - -x) by ring, abs_neg]
    exact this
  · rw [h2]; simp
  · have hx : 0 < x := lt_of_le_of_ne (not_lt.1 h1) (Ne.symm h2)
    rw [abs_of_pos hx]
    exact nearest_error hx

theorem double_mono : Monotone double := by
  intro x y h
  unfold double
  split_ifs with h1 h2 h3 h4 h5 h6 h7 h8
  · exact neg_le_neg (nearest_mono (neg_pos.2 h2) (neg_le_neg h))
  · have := nearest_pos (neg_pos.2 h1)
    linarith
  · have := nearest_pos (neg_pos.2 h1)
    have := nearest_pos (lt_of_le_of_ne (not_lt.1 h2) (Ne.symm h3))
    linarith
  · exact absurd (lt_of_le_of_lt (h4 ▸ h) h5) (lt_irrefl _)
  · exact le_refl 0
  · exact (nearest_pos (lt_of_le_of_ne (not_lt.1 h5) (Ne.symm h6))).le
  · exact absurd (lt_of_le_of_lt h h7) h1
  · exact absurd (le_antisymm (h8 ▸ h) (not_lt.1 h1)) h4
  · exact nearest_mono (lt_of_le_of_ne (not_lt.1 h1) (Ne.symm h4)) h

theorem double_one : double 1 = 1 := by
  unfold double nearest ulp
  rw [if_neg (by norm_num), if_neg (by norm_num), Int.log_one_right]
  have e : (1 : ℝ) / 2 ^ ((0 : ℤ) - 52) = ((2 ^ 52 : ℤ) : ℝ) := by
    rw [zero_sub, zpow_neg]; push_cast; norm_num
  rw [e, round_intCast, zero_sub, zpow_neg]
  push_cast
  norm_num

/-- Binary64 arithmetic without limits of the exponent, with functions that are correctly rounded. -/
noncomputable def FloatLib.double : FloatLib ℝ where
  rnd := Beyonce.double
  sqrt x := Beyonce.double √x
  sin x := Beyonce.double (Real.sin x)
  cos x := Beyonce.double (Real.cos x)
  arctan2 y x := Beyonce.double (Complex.arg ⟨x, y⟩)
  arccos x := Beyonce.double (Real.arccos x)
  hypot x y := Beyonce.double √(x ^ 2 + y ^ 2)
  pi := Beyonce.double π

/-- It is as accurate as the theorems on rounding ask. -/
theorem double_accurate : Accurate .double (1 / 2 ^ 53) where
  nonneg := by positivity
  rnd := double_rounds
  mono := double_mono
  one := double_one
  sqrt _ _ := double_rounds _
  sin _ := double_rounds _
  cos _ := double_rounds _
  arctan2 _ _ := double_rounds _
  arccos _ _ _ := double_rounds _
  hypot _ _ := double_rounds _
  pi := double_rounds _

/-! ## Cases -/

/-- A disk centred 3 eclipse durations below the star path, with `fy = 2`: in binary64, `fx` is off by less
than one part in 10^12. -/
example : ∃ fx fx', Geometry.determineFx (.fin 3) (.fin 2) = .fin fx ∧
    GeometryRounded.determineFx .double (.fin 3) (.fin 2) = .fin fx' ∧ RelNear (1 / 10 ^ 12) fx' fx := by
  have h : (0 : ℝ) < 2 ^ 2 * (1 + 4 * 3 ^ 2) - 4 * 3 ^ 2 := by norm_num
  obtain ⟨-, h1, h2⟩ := width_props (dy := 3) (fy := 2) (by norm_num) (determineFx_fin 3 2 h)
  have h3 := h2 (by norm_num)
  norm_num at h3
  obtain ⟨fx', e, n, -⟩ := C104_fx_partial .double _ double_accurate 3 2 _ (by norm_num) (determineFx_fin 3 2 h)
    (by norm_num; linarith)
  exact ⟨_, fx', determineFx_fin 3 2 h, e, n.mono (by norm_num; linarith)⟩

/-- And with `fx = 1` the computed `fy` is 1 to as many digits. -/
example : ∃ fy', Geometry.determineFy (.fin 3) (.fin (1 : ℝ)) = .fin 1 ∧
    GeometryRounded.determineFy .double (.fin 3) (.fin 1) = .fin fy' ∧ RelNear (1 / 10 ^ 12) fy' 1 := by
  have h := determineFy_fin 3 1 (by norm_num) (by norm_num)
  have hw : width 3 1 = 37 := by unfold width; norm_num
  norm_num at h
  obtain ⟨fy', e, n⟩ := C104_fy_partial .double _ double_accurate 3 1 1 one_pos (by norm_num) h
    (by rw [hw]; norm_num) (by rw [hw]; norm_num)
  rw [hw] at n
  exact ⟨fy', h, e, n.mono (by norm_num)⟩

/-- The disk 3 eclipse durations below the star path and 1 to the side, with `fy = 2`: in binary64, its
radius is off by less than one part in 10^11. -/
example : ∃ R i t R' i' t', Geometry.diskParameters (Geometry.determineFx (.fin 3) (.fin 2)) (.fin 2)
      (Geometry.shear (.fin 1) (.fin 3)) (Geometry.circularRadius (.fin (3 : ℝ))) = (.fin R, .fin i, .fin t) ∧
    GeometryRounded.diskAt .double (.fin 1) (.fin 3) (.fin 2) = (.fin R', .fin i', .fin t') ∧
    |R' - R| ≤ 1 / 10 ^ 11 * R := by
  have h : (0 : ℝ) < 2 ^ 2 * (1 + 4 * 3 ^ 2) - 4 * 3 ^ 2 := by norm_num
  have hfx := determineFx_fin 3 2 h
  obtain ⟨hx, h1, h2⟩ := width_props (dy := 3) (fy := 2) (by norm_num) hfx
  have h3 := h2 (by norm_num)
  norm_num at h3
  have hs := shear_ok 1 3 (Or.inl (by norm_num))
  obtain ⟨R, i, t, hd, -, -, hR, -⟩ := C52_axes _ 2 (shearOf 1 3) √(1 / 4 + 3 ^ 2) hx (by norm_num)
    (Real.sqrt_pos.2 (by norm_num))
  have hd' := hd
  rw [← circularRadius_fin, ← hs, ← hfx] at hd'
  obtain ⟨R', i', t', e, n, -⟩ := C105_disk .double _ double_accurate 1 3 2 _ R i t (Or.inl (by norm_num))
    (by norm_num) hfx hd' (by norm_num; linarith)
  refine ⟨R, i, t, R', i', t', hd', e, n.trans (mul_le_mul_of_nonneg_right ?_ hR.le)⟩
  norm_num
  linarith

/-- The circle stretched twofold along y: in binary64, the tilt is right up to an angle of sine below
10^-13. -/
example : ∃ t R' i' t', Geometry.diskParameters (.fin 1) (.fin 2) (.fin 0) (.fin (1 : ℝ)) =
      (.fin 2, .fin 60, .fin t) ∧
    GeometryRounded.diskParameters .double (.fin 1) (.fin 2) (.fin 0) (.fin 1) = (.fin R', .fin i', .fin t') ∧
    |sin (rad t' - rad t)| ≤ 1 / 10 ^ 13 := by
  have hn : ∀ θ, norm2 (sheared 1 2 0 1 θ) = √(1 + 3 * sin θ ^ 2) := by
    intro θ
    unfold norm2 sheared
    simp only
    congr 1
    linear_combination sin_sq_add_cos_sq θ
  obtain ⟨R, i, t, h, hG, hS, hR, hi0, hi1⟩ := C52_axes 1 2 0 1 one_pos two_pos one_pos
  have hR2 : R = 2 := by
    refine hG.unique ⟨⟨π / 2, ?_⟩, ?_⟩
    · beta_reduce; rw [hn, sin_pi_div_two, show (1 + 3 * 1 ^ 2 : ℝ) = 2 ^ 2 by norm_num]
      exact sqrt_sq (by norm_num)
    · rintro _ ⟨θ, rfl⟩
      beta_reduce; rw [hn]
      exact sqrt_le_iff.2 ⟨by norm_num, by nlinarith [sin_sq_le_one θ]⟩
  have hr : R * cos (rad i) = 1 := by
    refine hS.unique ⟨⟨0, ?_⟩, ?_⟩
    · beta_reduce; rw [hn, sin_zero]; norm_num
    · rintro _ ⟨θ, rfl⟩
      beta_reduce; rw [hn]
      exact one_le_sqrt.2 (by nlinarith [sq_nonneg (sin θ)])
  subst hR2
  have hc : cos (rad i) = 1 / 2 := by linarith
  have hi : i = 60 := by
    have hp := pi_pos
    have h1 : rad i = π / 3 := by
      apply injOn_cos ⟨by unfold rad; positivity, ?_⟩ ⟨by positivity, by linarith⟩
      · rw [hc, cos_pi_div_three]
      · unfold rad
        have := mul_le_mul_of_nonneg_right hi1.le (show 0 ≤ π / 180 by positivity)
        linarith
    unfold rad at h1
    field_simp at h1
    linarith
  subst hi
  have hk : skew 2 1 = 10 / 3 := by unfold skew; norm_num
  obtain ⟨R', i', t', e, n⟩ := C105_tilt .double _ double_accurate 1 2 0 1 one_pos two_pos one_pos 2 60 t h
    (by linarith) (by rw [hr, hk]; norm_num)
  refine ⟨t, R', i', t', h, e, n.trans ?_⟩
  rw [hr, hk]
  norm_num

end Beyonce
