import Mathlib.Algebra.Order.Field.Rat
import Mathlib.Algebra.Order.Floor.Ring
import Mathlib.Data.Rat.Floor
import Mathlib.Tactic.Linarith
import Mathlib.Tactic.FieldSimp
import Mathlib.Tactic.NormNum
import Mathlib.Tactic.Positivity

/-!
# IEEE 754 binary64 rounding

Round to nearest, ties to even, with a significand of 53 bits.  The exponent range is not
limited: overflow and subnormal numbers are not modelled.  This is the rounding of Python's and
numpy's `+ - * /` on doubles, used for the concrete counterexamples of C15.
-/

namespace Beyonce

/-- The exponent of a nonzero rational: `2^e ≤ |x| < 2^(e+1)`. -/
def flog2 (x : ℚ) : ℤ :=
  let e := (Nat.log2 x.num.natAbs : ℤ) - Nat.log2 x.den
  if (2 : ℚ) ^ e ≤ |x| then e else e - 1

/-- The nearest integer, ties to even. -/
def roundEven (y : ℚ) : ℤ :=
  if y - ⌊y⌋ < 1 / 2 then ⌊y⌋ else
  if 1 / 2 < y - ⌊y⌋ then ⌊y⌋ + 1 else
  if ⌊y⌋ % 2 = 0 then ⌊y⌋ else ⌊y⌋ + 1

/-- The nearest binary64 number, ties to even. -/
def toDouble (x : ℚ) : ℚ :=
  if x = 0 then 0 else
  roundEven (x / 2 ^ (flog2 x - 52)) * 2 ^ (flog2 x - 52)

theorem flog2_le {x : ℚ} (hx : x ≠ 0) : (2 : ℚ) ^ flog2 x ≤ |x| := by
  unfold flog2
  simp only
  split_ifs with h
  · exact h
  · have hn : x.num.natAbs ≠ 0 := by simpa using hx
    have h1 : (2 : ℚ) ^ Nat.log2 x.num.natAbs ≤ (x.num.natAbs : ℚ) := by
      exact_mod_cast Nat.log2_self_le hn
    have h2 : (x.den : ℚ) < 2 ^ (Nat.log2 x.den + 1) := by
      exact_mod_cast Nat.lt_log2_self
    have hd : (0 : ℚ) < x.den := by exact_mod_cast x.den_pos
    have hx' : |x| = (x.num.natAbs : ℚ) / x.den := by
      conv_lhs => rw [← Rat.num_div_den x]
      rw [abs_div, abs_of_pos hd]
      congr 1
      exact (Nat.cast_natAbs (α := ℚ) x.num).symm ▸ (Int.cast_abs (R := ℚ) (a := x.num)).symm
    have e : ((Nat.log2 x.num.natAbs : ℤ) - (Nat.log2 x.den : ℤ) - 1) =
        (Nat.log2 x.num.natAbs : ℤ) - ((Nat.log2 x.den + 1 : ℕ) : ℤ) := by push_cast; ring
    rw [e, zpow_sub₀ (by norm_num), zpow_natCast, zpow_natCast, hx', div_le_div_iff₀ (by positivity) hd]
    exact mul_le_mul h1 h2.le hd.le (by positivity)

theorem roundEven_near (y : ℚ) : |(roundEven y : ℚ) - y| ≤ 1 / 2 := by
  have h1 := Int.floor_le y
  have h2 := Int.lt_floor_add_one y
  unfold roundEven
  split_ifs <;> rw [abs_le] <;> push_cast <;> constructor <;> linarith

/-- The relative error of rounding is at most `2^-53`. -/
theorem toDouble_error (x : ℚ) : |toDouble x - x| ≤ (1 / 2 ^ 53) * |x| := by
  unfold toDouble
  split_ifs with hx
  · simp [hx]
  · have hq : (0 : ℚ) < 2 ^ (flog2 x - 52) := zpow_pos (by norm_num) _
    have e : (roundEven (x / 2 ^ (flog2 x - 52)) : ℚ) * 2 ^ (flog2 x - 52) - x =
        (roundEven (x / 2 ^ (flog2 x - 52)) - x / 2 ^ (flog2 x - 52)) * 2 ^ (flog2 x - 52) := by
      field_simp
    rw [e, abs_mul, abs_of_pos hq]
    have h1 := roundEven_near (x / 2 ^ (flog2 x - 52))
    have h2 := flog2_le hx
    have h3 : (2 : ℚ) ^ (flog2 x - 52) = 2 ^ flog2 x / 2 ^ 52 := by
      rw [zpow_sub₀ (by norm_num)]; norm_cast
    calc _ ≤ 1 / 2 * 2 ^ (flog2 x - 52) := mul_le_mul_of_nonneg_right h1 hq.le
      _ = 1 / 2 ^ 53 * 2 ^ flog2 x := by rw [h3]; ring
      _ ≤ _ := by
        apply mul_le_mul_of_nonneg_left h2
        positivity

theorem lt_flog2 {x : ℚ} (hx : x ≠ 0) : |x| < (2 : ℚ) ^ (flog2 x + 1) := by
  have hn : x.num.natAbs ≠ 0 := by simpa using hx
  have hd : (0 : ℚ) < x.den := by exact_mod_cast x.den_pos
  have hx' : |x| = (x.num.natAbs : ℚ) / x.den := by
    conv_lhs => rw [← Rat.num_div_den x]
    rw [abs_div, abs_of_pos hd]
    congr 1
    exact (Nat.cast_natAbs (α := ℚ) x.num).symm ▸ (Int.cast_abs (R := ℚ) (a := x.num)).symm
  unfold flog2
  simp only
  split_ifs with h
  · have h1 : (x.num.natAbs : ℚ) < 2 ^ (Nat.log2 x.num.natAbs + 1) := by
      exact_mod_cast Nat.lt_log2_self
    have h2 : (2 : ℚ) ^ Nat.log2 x.den ≤ x.den := by
      exact_mod_cast Nat.log2_self_le x.den_pos.ne'
    have e : ((Nat.log2 x.num.natAbs : ℤ) - (Nat.log2 x.den : ℤ) + 1) =
        ((Nat.log2 x.num.natAbs + 1 : ℕ) : ℤ) - (Nat.log2 x.den : ℤ) := by push_cast; ring
    rw [e, zpow_sub₀ (by norm_num), zpow_natCast, zpow_natCast, hx',
      div_lt_div_iff₀ hd (by positivity)]
    calc _ ≤ (x.num.natAbs : ℚ) * x.den := mul_le_mul_of_nonneg_left h2 (by positivity)
      _ < _ := mul_lt_mul_of_pos_right h1 hd
  · rw [sub_add_cancel]
    exact not_le.1 h

theorem flog2_neg (x : ℚ) : flog2 (-x) = flog2 x := by simp [flog2]

/-- The exponent is the only one that fits. -/
theorem flog2_unique {x : ℚ} {e : ℤ} (h1 : (2 : ℚ) ^ e ≤ |x|) (h2 : |x| < (2 : ℚ) ^ (e + 1)) :
    flog2 x = e := by
  have hx : x ≠ 0 := by
    rintro rfl
    have : (0 : ℚ) < 2 ^ e := zpow_pos (by norm_num) _
    simp at h1
    linarith
  have a1 := (zpow_lt_zpow_iff_right₀ (by norm_num : (1 : ℚ) < 2)).1 (h1.trans_lt (lt_flog2 hx))
  have a2 := (zpow_lt_zpow_iff_right₀ (by norm_num : (1 : ℚ) < 2)).1 ((flog2_le hx).trans_lt h2)
  omega

theorem flog2_mono {x y : ℚ} (hx : 0 < x) (h : x ≤ y) : flog2 x ≤ flog2 y := by
  have hy := hx.trans_le h
  have h1 := flog2_le hx.ne'
  have h2 := lt_flog2 hy.ne'
  rw [abs_of_pos hx] at h1
  rw [abs_of_pos hy] at h2
  have := (zpow_lt_zpow_iff_right₀ (by norm_num : (1 : ℚ) < 2)).1 ((h1.trans h).trans_lt h2)
  omega

theorem roundEven_int (z : ℤ) : roundEven (z : ℚ) = z := by simp [roundEven]

theorem roundEven_mono {x y : ℚ} (h : x ≤ y) : roundEven x ≤ roundEven y := by
  have hf := Int.floor_mono h
  rcases lt_or_eq_of_le hf with h1 | h1
  · have a1 : roundEven x ≤ ⌊x⌋ + 1 := by unfold roundEven; split_ifs <;> omega
    have a2 : ⌊y⌋ ≤ roundEven y := by unfold roundEven; split_ifs <;> omega
    omega
  · unfold roundEven
    rw [h1]
    split_ifs <;> first | omega | (exfalso; linarith)

theorem roundEven_neg (x : ℚ) : roundEven (-x) = -roundEven x := by
  have f1 := Int.floor_le x
  have f2 := Int.lt_floor_add_one x
  by_cases hz : x = ⌊x⌋
  · rw [hz, ← Int.cast_neg, roundEven_int, roundEven_int]
  · have hlt : (⌊x⌋ : ℚ) < x := lt_of_le_of_ne f1 (Ne.symm hz)
    have hn : ⌊-x⌋ = -⌊x⌋ - 1 := by
      rw [Int.floor_eq_iff]
      push_cast
      constructor <;> linarith
    unfold roundEven
    rw [hn]
    push_cast
    split_ifs <;> first | omega | (exfalso; linarith)

theorem toDouble_neg (x : ℚ) : toDouble (-x) = -toDouble x := by
  unfold toDouble
  by_cases h : x = 0
  · simp [h]
  · rw [if_neg h, if_neg (by simpa using h), flog2_neg, neg_div, roundEven_neg]
    push_cast
    ring

/-- A rounded number lies between the powers of two around it. -/
theorem toDouble_between {x : ℚ} (hx : 0 < x) :
    (2 : ℚ) ^ flog2 x ≤ toDouble x ∧ toDouble x ≤ (2 : ℚ) ^ (flog2 x + 1) := by
  have h1 := flog2_le hx.ne'
  have h2 := lt_flog2 hx.ne'
  rw [abs_of_pos hx] at h1 h2
  have hq : (0 : ℚ) < 2 ^ (flog2 x - 52) := zpow_pos (by norm_num) _
  have e1 : (2 : ℚ) ^ flog2 x = ((2 ^ 52 : ℤ) : ℚ) * 2 ^ (flog2 x - 52) := by
    rw [zpow_sub₀ (by norm_num)]
    push_cast
    field_simp
  have e2 : (2 : ℚ) ^ (flog2 x + 1) = ((2 ^ 53 : ℤ) : ℚ) * 2 ^ (flog2 x - 52) := by
    rw [zpow_add₀ (by norm_num), e1]
    push_cast
    ring
  unfold toDouble
  rw [if_neg hx.ne', e1, e2]
  rw [e1] at h1
  rw [e2] at h2
  constructor
  · apply mul_le_mul_of_nonneg_right _ hq.le
    exact_mod_cast (roundEven_int _).symm.le.trans (roundEven_mono ((le_div_iff₀ hq).2 h1))
  · apply mul_le_mul_of_nonneg_right _ hq.le
    exact_mod_cast (roundEven_mono ((div_le_iff₀ hq).2 h2.le)).trans (roundEven_int _).le

theorem toDouble_pos {x : ℚ} (hx : 0 < x) : 0 < toDouble x :=
  (zpow_pos (by norm_num) _).trans_le (toDouble_between hx).1

theorem toDouble_zero : toDouble 0 = 0 := by simp [toDouble]

theorem toDouble_mono_pos {x y : ℚ} (hx : 0 < x) (h : x ≤ y) : toDouble x ≤ toDouble y := by
  have hy := hx.trans_le h
  rcases lt_or_eq_of_le (flog2_mono hx h) with h1 | h1
  · refine (toDouble_between hx).2.trans (le_trans ?_ (toDouble_between hy).1)
    exact zpow_le_zpow_right₀ (by norm_num) (by omega)
  · have hq : (0 : ℚ) < 2 ^ (flog2 y - 52) := zpow_pos (by norm_num) _
    unfold toDouble
    rw [if_neg hx.ne', if_neg hy.ne', h1]
    apply mul_le_mul_of_nonneg_right _ hq.le
    exact_mod_cast roundEven_mono (div_le_div_of_nonneg_right h hq.le)

/-- Rounding keeps the order. -/
theorem toDouble_mono : Monotone toDouble := by
  intro x y h
  rcases lt_trichotomy x 0 with hx | hx | hx
  · rcases lt_trichotomy y 0 with hy | hy | hy
    · have := toDouble_mono_pos (neg_pos.2 hy) (neg_le_neg h)
      rw [toDouble_neg, toDouble_neg] at this
      linarith
    · have := toDouble_pos (neg_pos.2 hx)
      rw [toDouble_neg] at this
      rw [hy, toDouble_zero]; linarith
    · have := toDouble_pos (neg_pos.2 hx)
      rw [toDouble_neg] at this
      linarith [toDouble_pos hy]
  · rw [hx] at h ⊢
    rw [toDouble_zero]
    rcases lt_or_eq_of_le h with hy | hy
    · exact (toDouble_pos hy).le
    · rw [← hy, toDouble_zero]
  · exact toDouble_mono_pos hx h

theorem toDouble_exact {y : ℚ} (hy : y ≠ 0) {m : ℤ} (h : y = m * 2 ^ (flog2 y - 52)) :
    toDouble y = y := by
  have hq : (2 : ℚ) ^ (flog2 y - 52) ≠ 0 := (zpow_pos (by norm_num) _).ne'
  have e : y / 2 ^ (flog2 y - 52) = m := by
    rw [div_eq_iff hq]; exact h
  unfold toDouble
  rw [if_neg hy, e, roundEven_int]
  exact h.symm

theorem toDouble_idem_pos {x : ℚ} (hx : 0 < x) : toDouble (toDouble x) = toDouble x := by
  have hp := toDouble_pos hx
  obtain ⟨b1, b2⟩ := toDouble_between hx
  have form : ∃ m : ℤ, toDouble x = m * 2 ^ (flog2 x - 52) := by
    unfold toDouble
    rw [if_neg hx.ne']
    exact ⟨_, rfl⟩
  obtain ⟨m, hm⟩ := form
  rcases lt_or_eq_of_le b2 with h | h
  · have hf : flog2 (toDouble x) = flog2 x :=
      flog2_unique (by rwa [abs_of_pos hp]) (by rwa [abs_of_pos hp])
    exact toDouble_exact hp.ne' (by rw [hf]; exact hm)
  · have hf : flog2 (toDouble x) = flog2 x + 1 := by
      apply flog2_unique <;> rw [abs_of_pos hp, h]
      exact zpow_lt_zpow_right₀ (by norm_num) (by omega)
    have e : (2 : ℚ) ^ (flog2 x + 1) = ((2 ^ 52 : ℤ) : ℚ) * 2 ^ (flog2 x + 1 - 52) := by
      rw [zpow_sub₀ (by norm_num)]
      push_cast
      field_simp
    exact toDouble_exact hp.ne' (by rw [hf]; exact h.trans e)

/-- A rounded number is a binary64 number. -/
theorem toDouble_idem (x : ℚ) : toDouble (toDouble x) = toDouble x := by
  rcases lt_trichotomy x 0 with hx | hx | hx
  · have := toDouble_idem_pos (neg_pos.2 hx)
    rw [toDouble_neg, toDouble_neg] at this
    linarith
  · rw [hx, toDouble_zero, toDouble_zero]
  · exact toDouble_idem_pos hx

theorem toDouble_one : toDouble 1 = 1 := by decide +kernel

end Beyonce
