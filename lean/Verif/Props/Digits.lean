import Verif.Texts
import Verif.Props.GridGradient

/-!
# C100: a number that is printed is the number nearest to it with that many digits
-/

namespace Beyonce

/-- The number that a decimal without sign stands for. -/
def Spec.readUnsigned {K : Type} [Field K] (l : List Char) : K :=
  let whole := l.takeWhile (· ≠ '.')
  let frac := (l.dropWhile (· ≠ '.')).drop 1
  (Nat.ofDigitChars 10 whole 0 : K) + (Nat.ofDigitChars 10 frac 0 : K) / 10 ^ frac.length

/-- The number that a decimal stands for. -/
def Spec.readDecimal {K : Type} [Field K] (s : String) : K :=
  match s.toList with
  | '-' :: l => -Spec.readUnsigned l
  | l => Spec.readUnsigned l

/-- A decimal with `d` digits after the point: perhaps a sign, some digits, a point, `d` digits. -/
def Spec.IsDecimal (d : ℕ) (s : String) : Prop :=
  ∃ (sign : List Char) (whole frac : List Char), s.toList = sign ++ whole ++ ['.'] ++ frac ∧
    (sign = [] ∨ sign = ['-']) ∧ whole ≠ [] ∧ frac.length = d ∧
    ∀ c ∈ whole ++ frac, c.isDigit = true

section
set_option linter.unusedSectionVars false
variable {K : Type} [Field K] [LinearOrder K] [IsStrictOrderedRing K] [FloorRing K]

theorem lastDigits_length (d n : ℕ) : (lastDigits d n).length = d := by
  induction d generalizing n with
  | zero => rfl
  | succ d ih => simp [lastDigits, ih]

theorem lastDigits_isDigit (d n : ℕ) : ∀ c ∈ lastDigits d n, c.isDigit = true := by
  induction d generalizing n with
  | zero => intro c hc; simp [lastDigits] at hc
  | succ d ih =>
    intro c hc
    simp only [lastDigits, List.mem_append, List.mem_singleton] at hc
    rcases hc with hc | hc
    · exact ih _ c hc
    · subst hc
      rw [Nat.isDigit_digitChar]
      exact decide_eq_true (Nat.mod_lt _ (by norm_num))

theorem lastDigits_value (d n : ℕ) : Nat.ofDigitChars 10 (lastDigits d n) 0 = n % 10 ^ d := by
  induction d generalizing n with
  | zero => simp [lastDigits, Nat.mod_one]
  | succ d ih =>
    rw [lastDigits, Nat.ofDigitChars_append, ih,
      Nat.ofDigitChars_cons_digitChar_of_lt_ten (Nat.mod_lt _ (by norm_num)), Nat.ofDigitChars_nil,
      pow_succ', Nat.mod_mul]
    omega

theorem isDigit_ne {c : Char} (h : c.isDigit = true) : c ≠ '.' ∧ c ≠ '-' ∧ c ≠ ' ' ∧ c ≠ '\n' := by
  refine ⟨?_, ?_, ?_, ?_⟩ <;> rintro rfl <;> exact absurd h (by decide)

theorem read_parts (w f : List Char) (hw : ∀ c ∈ w, c.isDigit = true) :
    (Spec.readUnsigned (w ++ '.' :: f) : K)
      = (Nat.ofDigitChars 10 w 0 : K) + (Nat.ofDigitChars 10 f 0 : K) / 10 ^ f.length := by
  have hne : ∀ c ∈ w, (decide (c ≠ '.')) = true := fun c hc => decide_eq_true (isDigit_ne (hw c hc)).1
  unfold Spec.readUnsigned
  simp only
  rw [List.takeWhile_append_of_pos hne, List.dropWhile_append_of_pos hne]
  simp

/-- What is between the sign and the end of a printed number. -/
theorem fixed_toList (d : ℕ) (x : K) : (fixed d (.fin x)).toList
    = (if x < 0 then ['-'] else []) ++ (Nat.toDigits 10
      ((GGrad.roundHalfEven (|x| * 10 ^ d)).toNat / 10 ^ d) ++ '.' ::
      lastDigits d ((GGrad.roundHalfEven (|x| * 10 ^ d)).toNat % 10 ^ d)) := by
  unfold fixed
  simp only [String.toList_append, String.toList_ofList, Nat.toString_eq_repr, Nat.toList_repr]
  split_ifs <;> simp

theorem toDigits_isDigit (n : ℕ) : ∀ c ∈ Nat.toDigits 10 n, c.isDigit = true :=
  fun _ hc => Nat.isDigit_of_mem_toDigits (by norm_num) (by norm_num) hc

theorem roundHalfEven_nonneg {x : K} (h : 0 ≤ x) : 0 ≤ GGrad.roundHalfEven x := by
  have := Int.floor_nonneg.2 h
  unfold GGrad.roundHalfEven
  simp only
  split_ifs <;> omega

/-- What a printed number reads as. -/
theorem read_fixed (d : ℕ) (x : K) : (Spec.readDecimal (fixed d (.fin x)) : K)
    = (if x < 0 then -1 else 1) * ((GGrad.roundHalfEven (|x| * 10 ^ d) : K) / 10 ^ d) := by
  have h10 : (10 : K) ^ d ≠ 0 := by positivity
  have hr := roundHalfEven_nonneg (x := |x| * 10 ^ d) (by positivity)
  have hu : ∀ n : ℕ, (Spec.readUnsigned (Nat.toDigits 10 (n / 10 ^ d) ++ '.' :: lastDigits d (n % 10 ^ d)) : K)
      = (n : K) / 10 ^ d := by
    intro n
    rw [read_parts _ _ (toDigits_isDigit _), Nat.ofDigitChars_ten_toDigits, lastDigits_value,
      lastDigits_length, Nat.mod_mod]
    have := Nat.div_add_mod n (10 ^ d)
    have h2 : ((10 ^ d * (n / 10 ^ d) + n % 10 ^ d : ℕ) : K) = n := by rw [this]
    push_cast at h2
    field_simp
    linarith
  have hc : ((GGrad.roundHalfEven (|x| * 10 ^ d)).toNat : K) = (GGrad.roundHalfEven (|x| * 10 ^ d) : K) := by
    rw [← Int.cast_natCast, Int.toNat_of_nonneg hr]
  unfold Spec.readDecimal
  rw [fixed_toList]
  by_cases hx : x < 0
  · rw [if_pos hx, if_pos hx]
    simp only [List.cons_append, List.nil_append]
    rw [hu, hc]; ring
  · rw [if_neg hx, if_neg hx]
    simp only [List.nil_append]
    rw [← hc, ← hu]
    obtain ⟨c, l, hl⟩ : ∃ c l, Nat.toDigits 10 ((GGrad.roundHalfEven (|x| * 10 ^ d)).toNat / 10 ^ d) = c :: l := by
      cases h : Nat.toDigits 10 ((GGrad.roundHalfEven (|x| * 10 ^ d)).toNat / 10 ^ d) with
      | nil => exact absurd h Nat.toDigits_ne_nil
      | cons c l => exact ⟨c, l, rfl⟩
    have hcd : c ≠ '-' := (isDigit_ne (toDigits_isDigit _ c (by rw [hl]; simp))).2.1
    rw [hl, List.cons_append]
    split
    · next heq => exact absurd (List.cons.inj heq).1 hcd
    · rw [one_mul]

/-- **C100** The printed decimal is at most half a unit of its last digit away from the number. -/
theorem C100_near (d : ℕ) (x : K) : |(Spec.readDecimal (fixed d (.fin x)) : K) - x| ≤ 1 / (2 * 10 ^ d) := by
  have h10 : (0 : K) < 10 ^ d := by positivity
  have h := roundHalfEven_near (|x| * 10 ^ d)
  have key : |(GGrad.roundHalfEven (|x| * 10 ^ d) : K) / 10 ^ d - (|x|)| ≤ 1 / (2 * 10 ^ d) := by
    rw [show (GGrad.roundHalfEven (|x| * 10 ^ d) : K) / 10 ^ d - |x|
      = ((GGrad.roundHalfEven (|x| * 10 ^ d) : K) - |x| * 10 ^ d) / 10 ^ d by field_simp, abs_div,
      abs_of_pos h10, div_le_div_iff₀ h10 (by positivity)]
    nlinarith
  rw [read_fixed]
  split_ifs with hx
  · rw [abs_of_neg hx] at key ⊢
    rw [show (-1 : K) * ((GGrad.roundHalfEven (-x * 10 ^ d) : K) / 10 ^ d) - x
      = -((GGrad.roundHalfEven (-x * 10 ^ d) : K) / 10 ^ d - -x) by ring, abs_neg]
    exact key
  · rw [abs_of_nonneg (not_lt.1 hx)] at key ⊢
    rw [one_mul]; exact key

/-- **C100** A finite number prints as a decimal with as many digits after the point as the format asks
for. -/
theorem C100_digits (d : ℕ) (x : K) : Spec.IsDecimal d (fixed d (.fin x)) := by
  refine ⟨if x < 0 then ['-'] else [], Nat.toDigits 10 ((GGrad.roundHalfEven (|x| * 10 ^ d)).toNat / 10 ^ d),
    lastDigits d ((GGrad.roundHalfEven (|x| * 10 ^ d)).toNat % 10 ^ d), ?_, ?_, Nat.toDigits_ne_nil,
    lastDigits_length _ _, ?_⟩
  · rw [fixed_toList]; simp
  · split_ifs <;> simp
  · intro c hc
    rcases List.mem_append.1 hc with hc | hc
    · exact toDigits_isDigit _ c hc
    · exact lastDigits_isDigit _ _ c hc

/-- **C100** A number with no more digits than the format shows is printed exactly. -/
theorem C100_exact (d : ℕ) (m : ℤ) :
    (Spec.readDecimal (fixed d (.fin ((m : K) / 10 ^ d))) : K) = (m : K) / 10 ^ d := by
  have h10 : (0 : K) < 10 ^ d := by positivity
  rw [read_fixed]
  have ha : |(m : K) / 10 ^ d| * 10 ^ d = ((|m| : ℤ) : K) := by
    rw [abs_div, abs_of_pos h10, div_mul_cancel₀ _ h10.ne', Int.cast_abs]
  have hr : GGrad.roundHalfEven (((|m| : ℤ) : K)) = |m| := by
    unfold GGrad.roundHalfEven
    simp only [Int.floor_intCast, sub_self]
    rw [if_pos (by norm_num)]
  rw [ha, hr]
  split_ifs with hx
  · have hm : m < 0 := by
      by_contra hc
      exact absurd hx (not_lt.2 (div_nonneg (by exact_mod_cast not_lt.1 hc) h10.le))
    rw [abs_of_neg hm]; push_cast; ring
  · have hm : 0 ≤ m := by
      by_contra hc
      exact hx (div_neg_of_neg_of_pos (by exact_mod_cast not_le.1 hc) h10)
    rw [abs_of_nonneg hm, one_mul]

/-- **C100** A number exactly between two decimals is printed as the one whose last digit is even. -/
theorem C100_even (d : ℕ) (m : ℤ) :
    ∃ e : ℤ, Even e ∧ |2 * e - (2 * m + 1)| = 1 ∧
      (Spec.readDecimal (fixed d (.fin (((2 * m + 1 : ℤ) : K) / (2 * 10 ^ d)))) : K) = (e : K) / 10 ^ d := by
  have h10 : (0 : K) < 10 ^ d := by positivity
  rw [read_fixed]
  have ha : |((2 * m + 1 : ℤ) : K) / (2 * 10 ^ d)| * 10 ^ d = ((|2 * m + 1| : ℤ) : K) / 2 := by
    rw [abs_div, abs_of_pos (show (0 : K) < 2 * 10 ^ d by positivity), Int.cast_abs]
    field_simp
  obtain ⟨k, hk, hk0⟩ : ∃ k : ℤ, |2 * m + 1| = 2 * k + 1 ∧ 0 ≤ k := by
    rcases le_or_gt 0 m with h | h
    · exact ⟨m, by rw [abs_of_nonneg (by omega)], h⟩
    · exact ⟨-m - 1, by rw [abs_of_neg (by omega)]; ring, by omega⟩
  have hf : ⌊((2 * k + 1 : ℤ) : K) / 2⌋ = k := by
    rw [Int.floor_eq_iff]
    push_cast
    constructor <;> linarith
  have hr : ∃ e : ℤ, Even e ∧ (e = k ∨ e = k + 1) ∧ GGrad.roundHalfEven (((2 * k + 1 : ℤ) : K) / 2) = e := by
    unfold GGrad.roundHalfEven
    simp only [hf]
    rw [if_neg (by push_cast; linarith), if_neg (by push_cast; linarith)]
    split_ifs with hev
    · exact ⟨k, Int.even_iff.2 hev, Or.inl rfl, rfl⟩
    · exact ⟨k + 1, Int.even_iff.2 (by omega), Or.inr rfl, rfl⟩
  obtain ⟨e, he, hek, hre⟩ := hr
  rw [ha, hk, hre]
  split_ifs with hx
  · have hm : 2 * m + 1 < 0 := by
      by_contra hc
      exact absurd hx (not_lt.2 (div_nonneg (by exact_mod_cast not_lt.1 hc) (by positivity)))
    rw [abs_of_neg hm] at hk
    refine ⟨-e, he.neg, ?_, by push_cast; ring⟩
    rcases hek with h | h <;> subst h
    · rw [show 2 * -e - (2 * m + 1) = 1 by omega]; rfl
    · rw [show 2 * -(k + 1) - (2 * m + 1) = -1 by omega]; rfl
  · have hm : 0 ≤ 2 * m + 1 := by
      by_contra hc
      exact hx (div_neg_of_neg_of_pos (by exact_mod_cast not_le.1 hc) (by positivity))
    rw [abs_of_nonneg hm] at hk
    refine ⟨e, he, ?_, by rw [one_mul]⟩
    rcases hek with h | h <;> subst h
    · rw [show 2 * e - (2 * m + 1) = -1 by omega]; rfl
    · rw [show 2 * (k + 1) - (2 * m + 1) = 1 by omega]; rfl

theorem roundHalfEven_mono {x y : K} (h : x ≤ y) : GGrad.roundHalfEven x ≤ GGrad.roundHalfEven y := by
  have hf := Int.floor_le_floor h
  have h1 := Int.floor_le x
  have h2 := Int.lt_floor_add_one x
  have h3 := Int.floor_le y
  have h4 := Int.lt_floor_add_one y
  rcases hf.lt_or_eq with hlt | heq
  · have : ⌊x⌋ + 1 ≤ ⌊y⌋ := hlt
    have a : GGrad.roundHalfEven x ≤ ⌊x⌋ + 1 := by
      unfold GGrad.roundHalfEven; simp only; split_ifs <;> omega
    have b : ⌊y⌋ ≤ GGrad.roundHalfEven y := by
      unfold GGrad.roundHalfEven; simp only; split_ifs <;> omega
    omega
  · unfold GGrad.roundHalfEven
    simp only
    rw [heq] at *
    have : x - (⌊y⌋ : K) ≤ y - ⌊y⌋ := by linarith
    split_ifs <;> first | omega | (exfalso; linarith)

/-- **C100** The greater of two numbers never prints as the smaller decimal. -/
theorem C100_monotone (d : ℕ) (x y : K) (h : x ≤ y) :
    (Spec.readDecimal (fixed d (.fin x)) : K) ≤ Spec.readDecimal (fixed d (.fin y)) := by
  have h10 : (0 : K) < 10 ^ d := by positivity
  have nn : ∀ z : K, (0 : K) ≤ (GGrad.roundHalfEven (|z| * 10 ^ d) : K) / 10 ^ d := fun z =>
    div_nonneg (by exact_mod_cast roundHalfEven_nonneg (by positivity)) h10.le
  have mono : ∀ a b : K, |a| ≤ |b| → (GGrad.roundHalfEven (|a| * 10 ^ d) : K) / 10 ^ d
      ≤ (GGrad.roundHalfEven (|b| * 10 ^ d) : K) / 10 ^ d := by
    intro a b hab
    apply div_le_div_of_nonneg_right _ h10.le
    exact_mod_cast roundHalfEven_mono (mul_le_mul_of_nonneg_right hab h10.le)
  rw [read_fixed, read_fixed]
  split_ifs with hx hy hy
  · have := mono y x (by rw [abs_of_neg hx, abs_of_neg hy]; linarith)
    linarith
  · have := nn x
    have := nn y
    linarith
  · exact absurd hy (by linarith)
  · have := mono x y (by rw [abs_of_nonneg (not_lt.1 hx), abs_of_nonneg (not_lt.1 hy)]; exact h)
    linarith

/-- **C100** What is not a finite number prints as a word, which is no decimal. -/
theorem C100_special (d : ℕ) : fixed d (.nan : XF K) = "nan" ∧ fixed d (.pinf : XF K) = "inf" ∧
    fixed d (.ninf : XF K) = "-inf" ∧ ¬Spec.IsDecimal d "nan" ∧ ¬Spec.IsDecimal d "inf" ∧
    ¬Spec.IsDecimal d "-inf" := by
  have key : ∀ s : String, '.' ∉ s.toList → ¬Spec.IsDecimal d s := by
    rintro s hs ⟨a, b, c, h, -⟩
    exact hs (by rw [h]; simp)
  exact ⟨rfl, rfl, rfl, key _ (by decide), key _ (by decide), key _ (by decide)⟩

/-- The names of the directories of gradients are printed in the same way. -/
theorem fixed_four (x : XF K) : fixed 4 x = GGrad.fmt4 x := by
  cases x with
  | nan => rfl
  | pinf => rfl
  | ninf => rfl
  | fin x =>
    apply String.toList_inj.1
    rw [fixed_toList]
    unfold GGrad.fmt4 GGrad.digits4
    simp only [String.toList_append, Nat.toString_eq_repr, Nat.toList_repr, lastDigits]
    have hd : ∀ n : ℕ, Nat.toDigits 10 (n % 10) = [Nat.digitChar (n % 10)] := fun n =>
      Nat.toDigits_of_lt_base (Nat.mod_lt _ (by norm_num))
    simp only [hd, Nat.div_div_eq_div_mul]
    split_ifs <;> simp

example : fixed 2 (.fin (75 : ℚ)) = "75.00" ∧ fixed 4 (.fin (1 / 3 : ℚ)) = "0.3333" ∧
    fixed 2 (.fin (-1 / 1000 : ℚ)) = "-0.00" := by decide +kernel
/-- Ties go to the even digit: 0.125 and 0.375. -/
example : fixed 2 (.fin (1 / 8 : ℚ)) = "0.12" ∧ fixed 2 (.fin (3 / 8 : ℚ)) = "0.38" := by decide +kernel
example : (Spec.readDecimal "-12.3400" : ℚ) = -1234 / 100 := by decide +kernel

end
end Beyonce
