import Verif.Props.Digits

/-!
# The words of a text

Helpers for `Props/Texts.lean`: what is between blanks and line breaks.
-/

namespace Beyonce

/-- A blank or a line break. -/
def isSep (c : Char) : Bool := c == ' ' || c == '\n'

/-- The words, with the beginning of the first. -/
def wordsFrom : List Char → List Char → List (List Char)
  | acc, [] => if acc = [] then [] else [acc]
  | acc, c :: cs =>
    if isSep c then (if acc = [] then [] else [acc]) ++ wordsFrom [] cs else wordsFrom (acc ++ [c]) cs

/-- The words of a string. -/
def words (s : String) : List (List Char) := wordsFrom [] s.toList

theorem wordsFrom_sep (acc l : List Char) (c : Char) (m : List Char) (hc : isSep c = true) :
    wordsFrom acc (l ++ c :: m) = wordsFrom acc l ++ wordsFrom [] m := by
  induction l generalizing acc with
  | nil => simp [wordsFrom, hc]
  | cons a l ih =>
    by_cases ha : isSep a = true
    · simp [wordsFrom, ha, ih]
    · simp [wordsFrom, ha, ih]

theorem wordsFrom_noSep (acc l : List Char) (h : ∀ c ∈ l, isSep c = false) :
    wordsFrom acc l = if acc ++ l = [] then [] else [acc ++ l] := by
  induction l generalizing acc with
  | nil => simp [wordsFrom]
  | cons a l ih =>
    have ha := h a (by simp)
    simp only [wordsFrom, ha]
    rw [if_neg (by simp), ih _ fun c hc => h c (by simp [hc])]
    simp

/-- A string that is one word. -/
def IsWord (s : String) : Prop := s.toList ≠ [] ∧ ∀ c ∈ s.toList, isSep c = false

theorem words_word {s : String} (h : IsWord s) : words s = [s.toList] := by
  unfold words
  rw [wordsFrom_noSep _ _ h.2, List.nil_append, if_neg h.1]

/-- Does it begin with a blank? -/
def startsSep (s : String) : Bool := s.toList.head?.any isSep

/-- Does it end with a blank? -/
def endsSep (s : String) : Bool := s.toList.getLast?.any isSep

theorem words_left {a : String} (b : String) (h : endsSep a = true) : words (a ++ b) = words a ++ words b := by
  unfold endsSep at h
  cases hl : a.toList.getLast? with
  | none => rw [hl] at h; cases h
  | some c =>
    rw [hl] at h
    have hc : isSep c = true := h
    obtain ⟨l, hl⟩ := List.getLast?_eq_some_iff.1 hl
    unfold words
    rw [String.toList_append, hl, List.append_assoc, List.singleton_append, wordsFrom_sep _ _ _ _ hc,
      wordsFrom_sep _ _ _ _ hc]
    simp [wordsFrom]

theorem words_right (a : String) {b : String} (h : startsSep b = true) : words (a ++ b) = words a ++ words b := by
  unfold startsSep at h
  cases hl : b.toList with
  | nil => rw [hl] at h; cases h
  | cons c l =>
    rw [hl] at h
    have hc : isSep c = true := h
    unfold words
    rw [String.toList_append, hl, wordsFrom_sep _ _ _ _ hc]
    simp [wordsFrom, hc]

theorem startsSep_append {a : String} (b : String) (h : startsSep a = true) : startsSep (a ++ b) = true := by
  unfold startsSep at *
  cases hl : a.toList with
  | nil => rw [hl] at h; cases h
  | cons c l => rw [hl] at h; simp [hl]; exact h

theorem endsSep_append (a : String) {b : String} (h : endsSep b = true) : endsSep (a ++ b) = true := by
  unfold endsSep at *
  cases hl : b.toList.getLast? with
  | none => rw [hl] at h; cases h
  | some c => rw [hl] at h; rw [String.toList_append, List.getLast?_append, hl]; exact h

theorem words_joinLines (l : List String) : words (joinLines l) = l.flatMap words := by
  induction l with
  | nil => rfl
  | cons a l ih =>
    cases l with
    | nil => simp [joinLines]
    | cons b l =>
      rw [joinLines, String.append_assoc, words_right _ (startsSep_append _ (by decide)),
        words_left _ (by decide), ih, List.flatMap_cons]
      simp [show words "\n" = [] by decide]

theorem words_pad (n : ℕ) (s t : String) : words (rjust n s ++ t) = words (s ++ t) := by
  unfold rjust
  generalize n - s.length = k
  induction k with
  | zero => simp
  | succ k ih =>
    unfold words at *
    simp only [String.toList_append, String.toList_ofList] at *
    simpa [List.replicate_succ, wordsFrom, isSep] using ih

theorem words_rjust (n : ℕ) (s : String) : words (rjust n s) = words s := by
  simpa using words_pad n s ""

theorem isWord_append {a b : String} (ha : IsWord a) (hb : ∀ c ∈ b.toList, isSep c = false) : IsWord (a ++ b) := by
  constructor
  · rw [String.toList_append]; simp [ha.1]
  · intro c hc
    rw [String.toList_append] at hc
    rcases List.mem_append.1 hc with h | h
    · exact ha.2 c h
    · exact hb c h

section
variable {K : Type} [Field K] [LinearOrder K] [IsStrictOrderedRing K] [FloorRing K]

theorem isDigit_noSep {c : Char} (h : c.isDigit = true) : isSep c = false := by
  have := isDigit_ne h
  simp [isSep, this.2.2.1, this.2.2.2]

theorem isWord_fixed (d : ℕ) (x : XF K) : IsWord (fixed d x) := by
  cases x with
  | nan => exact ⟨by simp [fixed], by simp only [fixed]; decide⟩
  | pinf => exact ⟨by simp [fixed], by simp only [fixed]; decide⟩
  | ninf => exact ⟨by simp [fixed], by simp only [fixed]; decide⟩
  | fin x =>
    obtain ⟨a, b, c, h, hs, hb, -, hd⟩ := C100_digits d x
    refine ⟨by rw [h]; simp, ?_⟩
    intro e he
    rw [h] at he
    simp only [List.mem_append, List.mem_singleton] at he
    rcases he with ((he | he) | he) | he
    · rcases hs with rfl | rfl
      · cases he
      · rw [List.mem_singleton.1 he]; decide
    · exact isDigit_noSep (hd e (List.mem_append_left _ he))
    · subst he; decide
    · exact isDigit_noSep (hd e (List.mem_append_right _ he))

theorem isWord_nat (n : ℕ) : IsWord (toString n) := by
  constructor
  · rw [Nat.toString_eq_repr, Nat.toList_repr]; exact Nat.toDigits_ne_nil
  · intro c hc
    rw [Nat.toString_eq_repr, Nat.toList_repr] at hc
    exact isDigit_noSep (toDigits_isDigit n c hc)

theorem toString_inj {a b : ℕ} (h : (toString a).toList = (toString b).toList) : a = b := by
  rw [Nat.toString_eq_repr, Nat.toString_eq_repr, Nat.toList_repr, Nat.toList_repr] at h
  have := congrArg (fun l => Nat.ofDigitChars 10 l 0) h
  simpa [Nat.ofDigitChars_ten_toDigits] using this

/-- A field between blanks. -/
theorem words_field (pre : String) (n : ℕ) {s : String} (post : String) (hs : IsWord s)
    (h1 : endsSep pre = true) (h2 : startsSep post = true) :
    words (pre ++ rjust n s ++ post) = words pre ++ s.toList :: words post := by
  rw [String.append_assoc, words_left _ h1, words_right _ h2, words_rjust, words_word hs]
  rfl

/-- A field at the end of a line. -/
theorem words_last (pre : String) (n : ℕ) {s : String} (hs : IsWord s) (h1 : endsSep pre = true) :
    words (pre ++ rjust n s) = words pre ++ [s.toList] := by
  rw [words_left _ h1, words_rjust, words_word hs]

end
end Beyonce
