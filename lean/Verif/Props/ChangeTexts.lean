import Verif.Props.Messages

/-!
# C101 and C106: the texts of changes of a ring system, centred lines, shapes, and the long texts of properties
-/

namespace Beyonce

section
set_option linter.unusedSectionVars false
variable {K : Type} [Field K] [LinearOrder K] [IsStrictOrderedRing K] [FloorRing K]
open Spec

/-- **C101** A centred text is the text with blanks on both sides that fill the line; they differ by one
at most, and the longer side is the right one on a line of even width, the left one otherwise. -/
theorem C101_centered (n : ℕ) (s : String) : ∃ l r : ℕ,
    (center n s).toList = List.replicate l ' ' ++ (s.toList ++ List.replicate r ' ') ∧
    (center n s).length = max n s.length ∧
    (Even n → l ≤ r ∧ r ≤ l + 1) ∧ (¬ Even n → r ≤ l ∧ l ≤ r + 1) := by
  obtain ⟨p, hp⟩ : ∃ p, p = n - s.length := ⟨_, rfl⟩
  obtain ⟨l, hl⟩ : ∃ l, l = p / 2 + (if p % 2 = 1 ∧ n % 2 = 1 then 1 else 0) := ⟨_, rfl⟩
  have hlp : l ≤ p := by rw [hl]; split_ifs <;> omega
  have hc : (center n s).toList = List.replicate l ' ' ++ (s.toList ++ List.replicate (p - l) ' ') := by
    unfold center
    simp only [← hp, ← hl]
    simp
  refine ⟨l, p - l, hc, ?_, ?_, ?_⟩
  · rw [← String.length_toList, hc, ← String.length_toList] at *
    simp only [List.length_append, List.length_replicate]
    omega
  · intro he
    rw [Nat.even_iff] at he
    rw [if_neg (by omega)] at hl
    omega
  · intro ho
    rw [Nat.even_iff] at ho
    split_ifs at hl <;> omega

theorem words_blanks (k : ℕ) (l : List Char) : wordsFrom [] (List.replicate k ' ' ++ l) = wordsFrom [] l := by
  induction k with
  | zero => rfl
  | succ k ih => simpa [List.replicate_succ, wordsFrom, isSep] using ih

theorem words_then_blanks (acc : List Char) (k : ℕ) (l : List Char) :
    wordsFrom acc (l ++ List.replicate k ' ') = wordsFrom acc l := by
  cases k with
  | zero => simp
  | succ k =>
    rw [List.replicate_succ, wordsFrom_sep _ _ _ _ (by decide)]
    have := words_blanks k []
    rw [List.append_nil] at this
    rw [this]
    simp [wordsFrom]

theorem words_center (n : ℕ) (s : String) : words (center n s) = words s := by
  obtain ⟨l, r, h, -⟩ := C101_centered n s
  unfold words
  rw [h, words_blanks, words_then_blanks]

theorem words_drop (s : SysReport K) : words (String.ofList (s.text.toList.drop 1)) = words s.text := by
  obtain ⟨t, ht⟩ : ∃ t : String, s.text = "\n" ++ t := by
    refine ⟨"======================================================================" ++ "\n" ++ joinLines
      (["********************** RING SYSTEM INFORMATION ***********************",
        "======================================================================\n",
        "Geometric Parameters", "--------------------\n",
        "Planet Radius: " ++ rjust 7 (fixed 2 s.planet) ++ " [R*]",
        "Inclination: " ++ rjust 9 (fixed 2 s.inclination) ++ " [deg]",
        "Tilt: " ++ rjust 16 (fixed 2 s.tilt) ++ " [deg]", "\n",
        "Ring Parameters", "---------------\n",
        "Ring #     Inner Radius     Outer Radius     Transmission"] ++
        s.lines.map RingLine.text ++
        ["", "======================================================================"]), ?_⟩
    unfold SysReport.text
    rw [← String.append_assoc, ← String.append_assoc]
    rfl
  rw [ht]
  have : String.ofList (("\n" ++ t).toList.drop 1) = t := by
    rw [String.toList_append]
    exact String.ofList_toList
  rw [this, words_left _ (by decide)]
  rfl

theorem words_changes (a : String) (ha : IsWord a) (before : Bool) (s : SysReport K) :
    words (s.changes a before) = (if before then
      ["======================================================================".toList, "Before:".toList]
      else ["After:".toList]) ++ a.toList :: words s.text := by
  unfold SysReport.changes
  rw [words_joinLines]
  cases before
  · simp only [Bool.false_eq_true, if_false, List.cons_append, List.nil_append, List.flatMap_cons,
      List.flatMap_nil, List.append_nil]
    rw [words_center, words_drop, words_left _ (by decide), words_word ha, show words "" = [] by decide,
      show words "After: " = ["After:".toList] by decide]
    simp only [List.nil_append, List.cons_append]
  · simp only [if_true, List.cons_append, List.nil_append, List.flatMap_cons, List.flatMap_nil,
      List.append_nil]
    rw [words_center, words_drop, words_left _ (by decide), words_word ha, show words "" = [] by decide,
      show words "Before: " = ["Before:".toList] by decide,
      show words "======================================================================" =
        ["======================================================================".toList] by decide]
    simp only [List.nil_append, List.cons_append]

/-- **C101** What is written before and after a change tells which of the two it is, the action, and the
ring system at that time, to the printed precision. -/
theorem C101_changes (a b : String) (ha : IsWord a) (hb : IsWord b) (before before' : Bool) (s t : RSys K)
    (h : s.report.changes a before = t.report.changes b before') : a = b ∧ before = before' ∧
    Spec.Agree 2 s.planet t.planet ∧ Spec.Agree 2 s.inclination t.inclination ∧
    Spec.Agree 2 s.tilt t.tilt ∧
    List.Forall₂ (fun a b => Spec.Agree 2 a.inner b.inner ∧ Spec.Agree 2 a.outer b.outer ∧
      Spec.Agree 2 a.transmission b.transmission) s.rings t.rings := by
  have hw := congrArg words h
  rw [words_changes a ha, words_changes b hb] at hw
  have hbb : before = before' := by
    cases before <;> cases before'
    · rfl
    · have := congrArg List.head? hw
      simp at this
    · have := congrArg List.head? hw
      simp at this
    · rfl
  subst hbb
  rw [List.append_cancel_left_eq, List.cons.injEq] at hw
  obtain ⟨h1, hw⟩ := hw
  refine ⟨String.toList_inj.1 h1, rfl, ?_⟩
  rw [words_system, words_system] at hw
  simp only [List.append_cancel_left_eq, List.cons.injEq, List.append_cancel_right_eq] at hw
  obtain ⟨c, d, e, f⟩ := hw
  exact ⟨agree_of_words c, agree_of_words d, agree_of_words e,
    same_rings 1 s.rings t.rings (same_lines _ _ f)⟩

end

/-! ## Shapes -/

/-- The runs of digits in a text, with the beginning of the first. -/
def Spec.runsFrom : List Char → List Char → List (List Char)
  | acc, [] => if acc = [] then [] else [acc]
  | acc, c :: cs =>
    if c.isDigit then Spec.runsFrom (acc ++ [c]) cs
    else (if acc = [] then [] else [acc]) ++ Spec.runsFrom [] cs

open Spec in
theorem runsFrom_digits (acc l m : List Char) (h : ∀ c ∈ l, c.isDigit = true) :
    runsFrom acc (l ++ m) = runsFrom (acc ++ l) m := by
  induction l generalizing acc with
  | nil => simp
  | cons a l ih =>
    simp only [List.cons_append, Spec.runsFrom, h a (by simp), if_true]
    rw [ih _ fun c hc => h c (by simp [hc])]
    simp

theorem toString_digits (n : ℕ) : (toString n).toList ≠ [] ∧ ∀ c ∈ (toString n).toList, c.isDigit = true := by
  rw [Nat.toString_eq_repr, Nat.toList_repr]
  exact ⟨Nat.toDigits_ne_nil, toDigits_isDigit n⟩

open Spec in
theorem runsFrom_number (n : ℕ) (c : Char) (m : List Char) (hc : c.isDigit = false) :
    runsFrom [] ((toString n).toList ++ c :: m) = (toString n).toList :: runsFrom [] m := by
  rw [runsFrom_digits _ _ _ (toString_digits n).2, List.nil_append, Spec.runsFrom, if_neg (by simp [hc]),
    if_neg (toString_digits n).1]
  rfl

open Spec in
theorem runsFrom_rest (l : List ℕ) : ∀ a : ℕ,
    runsFrom [] ((toString a).toList ++ ((l.foldr (fun b s => ", " ++ toString b ++ s) "").toList ++ [')']))
      = (a :: l).map fun n => (toString n).toList := by
  induction l with
  | nil =>
    intro a
    rw [List.foldr_nil, show ("" : String).toList = [] from rfl, List.nil_append,
      runsFrom_number a ')' [] (by decide)]
    rfl
  | cons b l ih =>
    intro a
    rw [List.foldr_cons, String.toList_append, String.toList_append,
      show (", " : String).toList = [',', ' '] from rfl]
    simp only [List.cons_append, List.nil_append, List.append_assoc]
    rw [runsFrom_number a ',' _ (by decide)]
    have : ∀ m, runsFrom [] (' ' :: m) = runsFrom [] m := fun m => rfl
    rw [this, ih b]
    rfl

theorem digits_no_comma (n : ℕ) : (toString n).toList.count ',' = 0 := by
  rw [List.count_eq_zero]
  intro h
  have := (toString_digits n).2 _ h
  exact absurd this (by decide)

theorem rest_commas (l : List ℕ) :
    (l.foldr (fun b s => ", " ++ toString b ++ s) "").toList.count ',' = l.length := by
  induction l with
  | nil => rfl
  | cons b l ih =>
    rw [List.foldr_cons, String.toList_append, String.toList_append, List.count_append, List.count_append,
      digits_no_comma, ih, show (", " : String).toList.count ',' = 1 from rfl, List.length_cons]
    omega

/-- **C106** The shape in a message can be read back: in brackets stand its lengths in order and nothing
else with digits, separated by commas; a single length has a comma too, as in a Python tuple. -/
theorem C106_shape (l : List ℕ) : (shapeText l).toList.head? = some '(' ∧
    (shapeText l).toList.getLast? = some ')' ∧
    Spec.runsFrom [] (shapeText l).toList = l.map (fun n => (toString n).toList) ∧
    (shapeText l).toList.count ',' = if l.length = 1 then 1 else l.length - 1 := by
  have open_ : ∀ m, Spec.runsFrom [] ('(' :: m) = Spec.runsFrom [] m := fun m => rfl
  cases l with
  | nil => exact ⟨rfl, rfl, rfl, rfl⟩
  | cons a l =>
    cases l with
    | nil =>
      have e : (shapeText [a]).toList = '(' :: ((toString a).toList ++ [',', ')']) := by
        simp [shapeText]
      rw [e]
      refine ⟨rfl, ?_, ?_, ?_⟩
      · rw [show [',', ')'] = [','] ++ [')'] from rfl, ← List.append_assoc, ← List.cons_append]
        exact List.getLast?_concat
      · rw [open_, runsFrom_number a ',' _ (by decide)]
        rfl
      · rw [List.count_cons, List.count_append, digits_no_comma]
        rfl
    | cons b l =>
      have e : (shapeText (a :: b :: l)).toList = '(' :: ((toString a).toList ++
          (((b :: l).foldr (fun b s => ", " ++ toString b ++ s) "").toList ++ [')'])) := by
        unfold shapeText
        rw [String.toList_append, String.toList_append, String.toList_append]
        simp
      rw [e]
      refine ⟨rfl, ?_, ?_, ?_⟩
      · rw [← List.append_assoc, ← List.cons_append]
        exact List.getLast?_concat
      · rw [open_, runsFrom_rest]
      · rw [List.count_cons, List.count_append, List.count_append, digits_no_comma, rest_commas]
        simp

/-- **C106** Different shapes have different texts. -/
theorem C106_shapes_differ (l m : List ℕ) (h : shapeText l = shapeText m) : l = m := by
  have h1 := (C106_shape l).2.2.1
  rw [h, (C106_shape m).2.2.1] at h1
  exact (List.map_injective_iff.2 (fun a b e => toString_inj e) h1).symm

/-- Non-vacuity: an even and an odd width, and three shapes. -/
example : center 6 "abc" = " abc  " ∧ center 7 "ab" = "   ab  " ∧ shapeText [] = "()" ∧
    shapeText [3] = "(3,)" ∧ shapeText [3, 40] = "(3, 40)" := by decide +kernel

/-- Non-vacuity: the same system before and after. -/
example : IsWord "add_ring()" ∧ ((⟨.fin 1, .fin 0, .fin 0, []⟩ : RSys ℚ).report.changes "add_ring()" true) ≠
    (⟨.fin 1, .fin 0, .fin 0, []⟩ : RSys ℚ).report.changes "add_ring()" false :=
  ⟨⟨by decide, by decide⟩, fun h => absurd (C101_changes _ _ ⟨by decide, by decide⟩ ⟨by decide, by decide⟩
    true false _ _ h).2.1 (by decide)⟩

/-! ## The long texts of properties and gradients -/

section
set_option linter.unusedSectionVars false
variable {K : Type} [Field K] [LinearOrder K] [IsStrictOrderedRing K] [FloorRing K]
open Spec

theorem params_head (p : ParamsReport K) (w : List Char) (h : w ≠ "Grid".toList) : (words p.text).head? ≠ some w := by
  rw [words_params, show words "Grid Parameters" = ["Grid".toList, "Parameters".toList] by decide]
  simp only [List.cons_append, List.head?_cons]
  exact fun e => h (Option.some.inj e).symm

theorem report_shape {g : GridParams K} {p : ParamsReport K} (hp : g.report = .ok p) : p.gridShape = g.gridShape := by
  unfold GridParams.report at hp
  cases h1 : rangeOf g.getVectors.2.1 with
  | error e => rw [h1] at hp; cases hp
  | ok a =>
    cases h2 : rangeOf g.getVectors.1 with
    | error e => rw [h1, h2] at hp; cases hp
    | ok b =>
      cases h3 : rangeOf g.getVectors.2.2 with
      | error e => rw [h1, h2, h3] at hp; cases hp
      | ok c => rw [h1, h2, h3] at hp; cases hp; rfl

/-- **C101** Properties whose long texts are the same agree as those whose short texts are, and so do the
parameters of their grids. -/
theorem C101_property_long (p q : GProp K) (r s : PropReport K) (hp : p.report = .ok r) (hq : q.report = .ok s)
    (g h : GridParams K) (a b : ParamsReport K) (hg : g.report = .ok a) (hh : h.report = .ok b)
    (he : r.textWith a = s.textWith b) : p.name = q.name ∧ p.unit = q.unit ∧ Spec.SameProp r s ∧
    Spec.SameParams a b ∧ g.gridShape = h.gridShape := by
  have w : ∀ (r : PropReport K) (a : ParamsReport K), words (r.textWith a) = words r.text ++ words a.text := by
    intro r a
    unfold PropReport.textWith PropReport.text
    rw [words_joinLines, words_joinLines, List.flatMap_append, List.flatMap_singleton]
  have hw := congrArg words he
  rw [w, w] at hw
  obtain ⟨h1, h2, h3⟩ := prop_of_words r s _ _ (report_titled p r hp) (report_titled q s hq) _ _
    (params_head a _ (by decide)) (params_head b _ (by decide)) hw
  have h4 := (params_of_words a b [] [] (by rw [h3])).1
  refine ⟨congrArg Prod.fst h2, congrArg Prod.snd h2, h1, h4, ?_⟩
  rw [← report_shape hg, ← report_shape hh]
  exact h4.2.2.2.2.2.2.2.2

/-- **C101** Gradients whose long texts are the same agree as those whose short texts are, and so do the
parameters of their grids. -/
theorem C101_gradient_long (p q : GGrad K) (r s : GradReport K) (hp : p.report = .ok r) (hq : q.report = .ok s)
    (g h : GridParams K) (a b : ParamsReport K) (hg : g.report = .ok a) (hh : h.report = .ok b)
    (he : r.textWith a = s.textWith b) : Spec.SameGrad r s ∧ Spec.SameParams a b ∧
    g.gridShape = h.gridShape := by
  have w : ∀ (r : GradReport K) (a : ParamsReport K), words (r.textWith a) = words r.text ++ words a.text := by
    intro r a
    unfold GradReport.textWith GradReport.text
    rw [words_joinLines, words_joinLines, List.flatMap_append, List.flatMap_singleton]
  have hw := congrArg words he
  rw [w, w] at hw
  obtain ⟨h1, -, h3⟩ := grad_of_words r s _ _ (grad_titled p r hp) (grad_titled q s hq) _ _
    ⟨params_head a _ (by decide), params_head a _ (by decide)⟩
    ⟨params_head b _ (by decide), params_head b _ (by decide)⟩ hw
  have h4 := (params_of_words a b [] [] (by rw [h3])).1
  refine ⟨h1, h4, ?_⟩
  rw [← report_shape hg, ← report_shape hh]
  exact h4.2.2.2.2.2.2.2.2

/-- Non-vacuity: two grids of different lengths have reports, and the same property on them has different
long texts (the texts themselves are in `Verif/Conformance/Texts.lean`). -/
example (p : GProp ℚ) (r : PropReport ℚ) (hp : p.report = .ok r) : ∃ (g h : GridParams ℚ) (a b : ParamsReport ℚ),
    g.report = .ok a ∧ h.report = .ok b ∧ r.textWith a ≠ r.textWith b := by
  obtain ⟨g, a, ha, hs⟩ : ∃ (g : GridParams ℚ) (a : ParamsReport ℚ), g.report = .ok a ∧
      g.gridShape = (2, 2, 3) := by
    have h1 : ((GridParams.new (.int 0) (.int 1) (.int 2) (.int 0) (.int 1) (.int 2) (.int 2) (.int 2) :
      Except Err (GridParams ℚ)).bind fun g => g.report.map fun _ => g.gridShape) = .ok (2, 2, 3) := by
      decide +kernel
    cases h2 : (GridParams.new (.int 0) (.int 1) (.int 2) (.int 0) (.int 1) (.int 2) (.int 2) (.int 2) :
      Except Err (GridParams ℚ)) with
    | error e => rw [h2] at h1; cases h1
    | ok g =>
      rw [h2] at h1
      cases h3 : g.report with
      | error e => simp only [Except.bind, h3] at h1; cases h1
      | ok a =>
        simp only [Except.bind, h3, Except.map, Except.ok.injEq] at h1
        exact ⟨g, a, h3, h1⟩
  obtain ⟨h, b, hb, ht⟩ : ∃ (h : GridParams ℚ) (b : ParamsReport ℚ), h.report = .ok b ∧
      h.gridShape = (2, 3, 3) := by
    have h1 : ((GridParams.new (.int 0) (.int 1) (.int 3) (.int 0) (.int 1) (.int 2) (.int 2) (.int 2) :
      Except Err (GridParams ℚ)).bind fun g => g.report.map fun _ => g.gridShape) = .ok (2, 3, 3) := by
      decide +kernel
    cases h2 : (GridParams.new (.int 0) (.int 1) (.int 3) (.int 0) (.int 1) (.int 2) (.int 2) (.int 2) :
      Except Err (GridParams ℚ)) with
    | error e => rw [h2] at h1; cases h1
    | ok g =>
      rw [h2] at h1
      cases h3 : g.report with
      | error e => simp only [Except.bind, h3] at h1; cases h1
      | ok a =>
        simp only [Except.bind, h3, Except.map, Except.ok.injEq] at h1
        exact ⟨g, a, h3, h1⟩
  refine ⟨g, h, a, b, ha, hb, fun e => ?_⟩
  have := (C101_property_long p p r r hp hp g h a b ha hb e).2.2.2.2
  rw [hs, ht] at this
  exact absurd this (by decide)

end
end Beyonce
