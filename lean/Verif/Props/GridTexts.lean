import Verif.Props.Texts
import Verif.Props.Cases
import Mathlib.Data.Rat.Floor
import Mathlib.Tactic.IntervalCases

/-!
# C101: what a grid, a viewer and a key of diagnostics print, and what stands behind each label
-/

namespace Beyonce
section
set_option linter.unusedSectionVars false
variable {K : Type} [Field K] [LinearOrder K] [IsStrictOrderedRing K] [FloorRing K]
open Spec

/-! ## Grids -/

/-- Reports of grids that are the same to the printed precision. -/
def Spec.SameGrid (a b : GridReport K) : Prop :=
  Spec.SameParams a.params b.params ∧ Spec.SameProp a.diskRadius b.diskRadius ∧ Spec.SameProp a.tilt b.tilt ∧
  Spec.SameProp a.inclination b.inclination ∧ List.Forall₂ Spec.SameGrad a.gradients b.gradients ∧
  a.diagnostics = b.diagnostics ∧ Spec.Agree 2 a.masked b.masked ∧ Spec.Agree 9 a.worst b.worst

/-- The words after the gradients. -/
def lastWords (g : GridReport K) : List (List Char) :=
  (match g.diagnostics with
    | none => []
    | some n => words (diagnosticsText n)) ++
  (words "Grid Information" ++ (words dashes ++ (words "percentage masked: " ++ (fixed 2 g.masked ++ "%").toList ::
    (words "worst interpolation fit: " ++ (fixed 9 g.worst).toList ::
      words "=========================================="))))

/-- The words before the parameters. -/
def firstWords : List (List Char) :=
  words "==========================================" ++ words "******** SHALLOT GRID INFORMATION ********" ++
    words "=========================================="

theorem words_grid (g : GridReport K) : words g.text
    = firstWords ++ (words g.params.text ++ (words g.diskRadius.text ++ (words g.tilt.text ++
      (words g.inclination.text ++ (g.gradients.flatMap (fun h => words h.text) ++ lastWords g))))) := by
  have hw : IsWord (fixed 2 g.masked ++ "%") := isWord_append (isWord_fixed _ _) (by decide)
  unfold GridReport.text firstWords lastWords
  rw [words_joinLines]
  simp only [List.flatMap_append, List.flatMap_cons, List.flatMap_nil]
  rw [String.append_assoc, words_left (a := "percentage masked: ") _ (by decide), words_word hw,
    words_left (a := "worst interpolation fit: ") _ (by decide), words_word (isWord_fixed _ _),
    show words "" = [] by decide, List.flatMap_map]
  cases g.diagnostics <;>
    simp only [List.append_assoc, List.cons_append, List.nil_append, List.append_nil, List.flatMap_cons,
      List.flatMap_nil]

/-- Words that begin neither like a mask nor like a measurement. -/
def Opens (l : List (List Char)) : Prop :=
  l.head? ≠ some "mask".toList ∧ l.head? ≠ some "measured".toList

theorem opens_title (t : PropName × PropUnit) (l : List (List Char)) : Opens (titleWords t ++ l) ∧
    (titleWords t ++ l).head? ≠ some "Grid".toList := by
  obtain ⟨-, h1, h2, -⟩ := titles t (mem_allTitles t)
  cases ht : titleWords t with
  | nil => exact absurd ht h2
  | cons w ws =>
    rw [ht] at h1
    obtain ⟨a, b, c⟩ := h1 w rfl
    exact ⟨⟨fun h => b (by simpa using h), fun h => c (by simpa using h)⟩, fun h => a (by simpa using h)⟩

theorem lastWords_head (g : GridReport K) : (lastWords g).head? = some "Grid".toList := by
  unfold lastWords
  cases g.diagnostics with
  | none => rw [List.nil_append, List.head?_append]; rfl
  | some n =>
    rw [List.head?_append]
    show ((words (diagnosticsText n)).head?).or _ = _
    rw [words_diagnostics, List.head?_append]
    rfl

theorem lastWords_opens (g : GridReport K) : Opens (lastWords g) := by
  unfold Opens
  rw [lastWords_head]
  decide

/-- Every gradient of a report bears the name and the unit of a property. -/
def Entitled (l : List (GradReport K)) : Prop := ∀ g ∈ l, ∃ t, Spec.Titled g.prop t

theorem opens_grads (l : List (GradReport K)) (k : List (List Char)) (hl : Entitled l) (hk : Opens k) :
    Opens (l.flatMap (fun h => words h.text) ++ k) := by
  cases l with
  | nil => exact hk
  | cons g l =>
    obtain ⟨t, ht⟩ := hl g (by simp)
    rw [List.flatMap_cons, words_grad g t ht, List.append_assoc, List.append_assoc]
    exact (opens_title t _).1

theorem grads_of_words (l m : List (GradReport K)) (hl : Entitled l) (hm : Entitled m) (j k : List (List Char))
    (hj : j.head? = some "Grid".toList) (hk : k.head? = some "Grid".toList)
    (h : l.flatMap (fun h => words h.text) ++ j = m.flatMap (fun h => words h.text) ++ k) :
    List.Forall₂ Spec.SameGrad l m ∧ j = k := by
  have opens : ∀ i : List (List Char), i.head? = some "Grid".toList → Opens i := by
    intro i hi; unfold Opens; rw [hi]; decide
  induction l generalizing m with
  | nil =>
    cases m with
    | nil => exact ⟨.nil, h⟩
    | cons b m =>
      obtain ⟨t, ht⟩ := hm b (by simp)
      rw [List.flatMap_cons, words_grad b t ht, List.append_assoc, List.append_assoc, List.flatMap_nil,
        List.nil_append] at h
      rw [h] at hj
      exact absurd hj (opens_title t _).2
  | cons a l ih =>
    obtain ⟨t, ht⟩ := hl a (by simp)
    cases m with
    | nil =>
      rw [List.flatMap_cons, words_grad a t ht, List.append_assoc, List.append_assoc, List.flatMap_nil,
        List.nil_append] at h
      rw [← h] at hk
      exact absurd hk (opens_title t _).2
    | cons b m =>
      obtain ⟨u, hu⟩ := hm b (by simp)
      have hl' : Entitled l := fun g hg => hl g (by simp [hg])
      have hm' : Entitled m := fun g hg => hm g (by simp [hg])
      rw [List.flatMap_cons, List.flatMap_cons, List.append_assoc, List.append_assoc] at h
      obtain ⟨h1, -, h2⟩ := grad_of_words a b t u ht hu _ _ (opens_grads l j hl' (opens j hj))
        (opens_grads m k hm' (opens k hk)) h
      obtain ⟨h3, h4⟩ := ih m hl' hm' h2
      exact ⟨.cons h1 h3, h4⟩

theorem last_of_words (a b : GridReport K) (h : lastWords a = lastWords b) :
    a.diagnostics = b.diagnostics ∧ Spec.Agree 2 a.masked b.masked ∧ Spec.Agree 9 a.worst b.worst := by
  unfold lastWords at h
  have differ : ∀ (n : ℕ) (l m : List (List Char)),
      words (diagnosticsText n) ++ l ≠ words "Grid Information" ++ m := by
    intro n l m h
    rw [words_diagnostics, show words "Grid Diagnostics" = ["Grid".toList, "Diagnostics".toList] by decide,
      show words "Grid Information" = ["Grid".toList, "Information".toList] by decide] at h
    simp only [List.cons_append, List.nil_append, List.cons.injEq, true_and] at h
    exact absurd h.1 (by decide)
  cases ha : a.diagnostics with
  | none =>
    cases hb : b.diagnostics with
    | none =>
      rw [ha, hb] at h
      simp only [List.append_cancel_left_eq, List.cons.injEq, and_true] at h
      exact ⟨rfl, percent_inj h.1, agree_of_words h.2⟩
    | some n => rw [ha, hb] at h; exact absurd h.symm (differ n _ _)
  | some m =>
    cases hb : b.diagnostics with
    | none => rw [ha, hb] at h; exact absurd h (differ m _ _)
    | some n =>
      rw [ha, hb] at h
      simp only [words_diagnostics, List.append_assoc, List.append_cancel_left_eq, List.cons_append,
        List.nil_append, List.cons.injEq, and_true] at h
      exact ⟨by rw [toString_inj h.1], percent_inj h.2.1, agree_of_words h.2.2⟩

theorem gradientReports_entitled (l : List (GGrad K)) (rs : List (GradReport K))
    (h : Shallot.gradientReports l = .ok rs) : Entitled rs := by
  induction l generalizing rs with
  | nil => cases h; intro g hg; cases hg
  | cons g l ih =>
    unfold Shallot.gradientReports at h
    cases h1 : g.report with
    | error e => rw [h1] at h; cases h
    | ok r =>
      cases h2 : Shallot.gradientReports l with
      | error e => rw [h1, h2] at h; cases h
      | ok ss =>
        rw [h1, h2] at h; cases h
        intro x hx
        rcases List.mem_cons.1 hx with rfl | hx
        · exact ⟨_, grad_titled g _ h1⟩
        · exact ih ss h2 x hx

/-- What the parts of the report of a grid come from. -/
theorem gridReport_parts (s : Shallot K) (r : GridReport K) (h : s.report = .ok r) :
    s.params.report = .ok r.params ∧ s.diskRadius.report = .ok r.diskRadius ∧ s.tilt.report = .ok r.tilt ∧
    s.inclination.report = .ok r.inclination ∧ Shallot.gradientReports (s.gradients.getD []) = .ok r.gradients ∧
    r.diagnostics = s.diagnostics.map Diagnostics.report := by
  unfold Shallot.report at h
  cases h1 : s.worstDeviation with
  | error e => rw [h1] at h; cases h
  | ok w =>
  cases h2 : s.combinedMask with
  | error e => rw [h1, h2] at h; cases h
  | ok m =>
  cases h3 : s.params.report with
  | error e => rw [h1, h2, h3] at h; cases h
  | ok p =>
  cases h4 : s.diskRadius.report with
  | error e => rw [h1, h2, h3, h4] at h; cases h
  | ok a =>
  cases h5 : s.tilt.report with
  | error e => rw [h1, h2, h3, h4, h5] at h; cases h
  | ok b =>
  cases h6 : s.inclination.report with
  | error e => rw [h1, h2, h3, h4, h5, h6] at h; cases h
  | ok c =>
  cases h7 : Shallot.gradientReports (s.gradients.getD []) with
  | error e => rw [h1, h2, h3, h4, h5, h6, h7] at h; cases h
  | ok gs =>
    rw [h1, h2, h3, h4, h5, h6, h7] at h
    cases h
    exact ⟨rfl, rfl, rfl, rfl, rfl, rfl⟩

/-- **C101** Grids that print the same have the same shape, as many gradients, as many diagnostics, and
agree in all that is printed of them to the printed precision. -/
theorem C101_grid (s t : Shallot K) (a b : GridReport K) (ha : s.report = .ok a) (hb : t.report = .ok b)
    (h : a.text = b.text) : Spec.SameGrid a b ∧ s.params.gridShape = t.params.gridShape ∧
    (s.gradients.getD []).length = (t.gradients.getD []).length ∧
    s.diagnostics.map Diagnostics.report = t.diagnostics.map Diagnostics.report := by
  have hw := congrArg words h
  rw [words_grid, words_grid] at hw
  have hw := List.append_cancel_left hw
  obtain ⟨hp, hw⟩ := params_of_words _ _ _ _ hw
  obtain ⟨pa, da, ta, ia, ga, xa⟩ := gridReport_parts s a ha
  obtain ⟨pb, db, tb, ib, gb, xb⟩ := gridReport_parts t b hb
  have ea := gradientReports_entitled _ _ ga
  have eb := gradientReports_entitled _ _ gb
  have head : ∀ (p : GProp K) (r : PropReport K), p.report = .ok r → ∀ k,
      (words r.text ++ k).head? ≠ some "mask".toList := by
    intro p r hr k
    rw [words_prop_text r _ (report_titled p r hr), List.append_assoc]
    exact (opens_title _ _).1.1
  obtain ⟨h1, -, hw⟩ := prop_of_words _ _ _ _ (report_titled _ _ da) (report_titled _ _ db) _ _
    (head _ _ ta _) (head _ _ tb _) hw
  obtain ⟨h2, -, hw⟩ := prop_of_words _ _ _ _ (report_titled _ _ ta) (report_titled _ _ tb) _ _
    (head _ _ ia _) (head _ _ ib _) hw
  obtain ⟨h3, -, hw⟩ := prop_of_words _ _ _ _ (report_titled _ _ ia) (report_titled _ _ ib) _ _
    (opens_grads _ _ ea (lastWords_opens a)).1 (opens_grads _ _ eb (lastWords_opens b)).1 hw
  obtain ⟨h4, hw⟩ := grads_of_words _ _ ea eb _ _ (lastWords_head a) (lastWords_head b) hw
  obtain ⟨h5, h6, h7⟩ := last_of_words a b hw
  have len : ∀ (l : List (GGrad K)) rs, Shallot.gradientReports l = .ok rs → rs.length = l.length := by
    intro l
    induction l with
    | nil => intro rs h; cases h; rfl
    | cons g l ih =>
      intro rs h
      unfold Shallot.gradientReports at h
      cases h1 : g.report with
      | error e => rw [h1] at h; cases h
      | ok r =>
        cases h2 : Shallot.gradientReports l with
        | error e => rw [h1, h2] at h; cases h
        | ok ss => rw [h1, h2] at h; cases h; simp [ih ss h2]
  refine ⟨⟨hp, h1, h2, h3, h4, h5, h6, h7⟩, ?_, ?_, by rw [← xa, ← xb, h5]⟩
  · have same : ∀ (g : GridParams K) p, g.report = .ok p → p.gridShape = g.gridShape := by
      intro g p hp
      unfold GridParams.report at hp
      cases h1 : rangeOf g.getVectors.2.1 with
      | error e => rw [h1] at hp; cases hp
      | ok a =>
        cases h2 : rangeOf g.getVectors.1 with
        | error e => rw [h1, h2] at hp; cases hp
        | ok b =>
          cases h3 : rangeOf g.getVectors.2.2 with
          | error e => rw [h1, h2, h3] at hp; cases hp
          | ok c => rw [h1, h2, h3] at hp; cases hp; rfl
    rw [← same _ _ pa, ← same _ _ pb]
    exact hp.2.2.2.2.2.2.2.2
  · rw [← len _ _ ga, ← len _ _ gb]
    exact h4.length_eq

/-! ## Viewers -/

theorem title_dash : ∀ t ∈ allTitles, ∀ w ∈ titleWords t, w ≠ "-".toList := by
  decide +kernel

theorem words_title (n : PropName) (u : PropUnit) (v : Viewer K) : words (v.titleText n u)
    = titleWords (n, u) ++ "-".toList :: (words (sliceName v.axis) ++ "=".toList ::
      (fixed 4 v.title.1).toList :: words (directionText v.title.2)) := by
  have hd : ∀ s : String, words (s ++ directionText v.title.2) = words s ++ words (directionText v.title.2) := by
    intro s
    rcases v.title.2 with _ | d
    · simp only [directionText, String.append_empty]
      rw [show words "" = [] by decide, List.append_nil]
    · cases d <;> exact words_right _ (by decide)
  have hs : words (sliceName v.axis ++ " = ") = words (sliceName v.axis) ++ words " = " :=
    words_right _ (by decide)
  unfold Viewer.titleText titleWords
  rw [hd, words_left _ (endsSep_append _ (by decide)), words_word (isWord_fixed _ _),
    show pretty n.str ++ " [" ++ u.symbol ++ "] - " ++ sliceName v.axis ++ " = "
      = (pretty n.str ++ " [" ++ u.symbol ++ "]") ++ (" - " ++ (sliceName v.axis ++ " = ")) by
      rw [show "] - " = "]" ++ " - " from rfl]; simp only [String.append_assoc],
    words_right _ (startsSep_append _ (by decide)), words_left (a := " - ") _ (by decide), hs,
    show words " - " = ["-".toList] by decide, show words " = " = ["=".toList] by decide]
  simp only [List.append_assoc, List.cons_append, List.nil_append]

/-- **C101** Viewers with the same title show properties of the same name and unit, along the same axis,
in the same half, at values that agree to four digits. -/
theorem C101_title (n m : PropName) (u w : PropUnit) (a b : Viewer K) (ha : a.axis ≤ 2) (hb : b.axis ≤ 2)
    (h : a.titleText n u = b.titleText m w) : n = m ∧ u = w ∧ a.axis = b.axis ∧
    Spec.Agree 4 a.title.1 b.title.1 ∧ a.title.2 = b.title.2 := by
  have hw := congrArg words h
  rw [words_title, words_title] at hw
  obtain ⟨h1, h2⟩ := title_end _ _ _ _ _ (title_dash _ (mem_allTitles _)) (title_dash _ (mem_allTitles _)) hw
  have h0 := (titles _ (mem_allTitles (n, u))).2.2.2.2 _ (mem_allTitles (m, w)) h1
  have hs : ∀ i : ℕ, words (sliceName i) = [(sliceName i).toList] := by
    intro i
    refine words_word ?_
    rcases i with _ | _ | i
    · exact ⟨by decide, by decide⟩
    · exact ⟨by decide, by decide⟩
    · exact (show IsWord "$R_f$" from ⟨by decide, by decide⟩)
  rw [hs, hs] at h2
  simp only [List.cons_append, List.nil_append, List.cons.injEq, true_and] at h2
  obtain ⟨h3, h4, h5⟩ := h2
  refine ⟨congrArg Prod.fst h0, congrArg Prod.snd h0, ?_, agree_of_words h4, ?_⟩
  · generalize a.axis = i at *
    generalize b.axis = j at *
    interval_cases i <;> interval_cases j <;> first | rfl | exact absurd h3 (by decide)
  · clear hw h
    generalize a.title.2 = x at h5 ⊢
    generalize b.title.2 = y at h5 ⊢
    rcases x with _ | d <;> rcases y with _ | e
    · rfl
    · cases e <;> exact absurd h5 (by decide)
    · cases d <;> exact absurd h5 (by decide)
    · cases d <;> cases e <;> first | rfl | exact absurd h5 (by decide)

/-! ## Keys of diagnostics -/

theorem intText (n : ℤ) : (toString n).toList = (if n < 0 then ['-'] else []) ++ Nat.toDigits 10 n.natAbs := by
  cases n with
  | ofNat k =>
    rw [if_neg (by simp)]
    show (Nat.repr k).toList = _
    simp [Nat.toList_repr]
  | negSucc k =>
    rw [if_pos (Int.negSucc_lt_zero k)]
    show ("-" ++ Nat.repr (k + 1)).toList = _
    simp [Nat.toList_repr]

theorem toDigits_head (n : ℕ) : ∃ c l, Nat.toDigits 10 n = c :: l ∧ c.isDigit = true := by
  cases h : Nat.toDigits 10 n with
  | nil => exact absurd h Nat.toDigits_ne_nil
  | cons c l => exact ⟨c, l, rfl, toDigits_isDigit n c (by rw [h]; simp)⟩

theorem intText_inj {a b : ℤ} (h : (toString a).toList = (toString b).toList) : a = b := by
  rw [intText, intText] at h
  obtain ⟨c, l, hc, hd⟩ := toDigits_head a.natAbs
  obtain ⟨e, m, he, hf⟩ := toDigits_head b.natAbs
  have noMinus : ∀ c : Char, c.isDigit = true → c ≠ '-' := by rintro _ h rfl; exact absurd h (by decide)
  by_cases ha : a < 0 <;> by_cases hb : b < 0
  · rw [if_pos ha, if_pos hb, List.append_cancel_left_eq] at h
    have := toDigits_inj h
    omega
  · rw [if_pos ha, if_neg hb, he] at h
    exact absurd (List.cons.inj h).1.symm (noMinus e hf)
  · rw [if_neg ha, if_pos hb, hc] at h
    exact absurd (List.cons.inj h).1 (noMinus c hd)
  · rw [if_neg ha, if_neg hb, List.nil_append, List.nil_append] at h
    have := toDigits_inj h
    omega

theorem keyPart_inj {a b : KeyPart} (h : a.text.toList = b.text.toList) : a = b := by
  have low : ∀ (n : ℤ) (c : Char) (l : List Char), (toString n).toList = c :: l → c.isDigit = true ∨ c = '-' := by
    intro n c l h
    rw [intText] at h
    obtain ⟨d, m, hc, hd⟩ := toDigits_head n.natAbs
    by_cases hn : n < 0
    · rw [if_pos hn] at h; exact .inr (List.cons.inj h).1.symm
    · rw [if_neg hn, hc] at h; exact .inl ((List.cons.inj h).1 ▸ hd)
  have notBool : ∀ (n : ℤ) (b : Bool), (toString n).toList ≠ (KeyPart.bool b).text.toList := by
    intro n b h
    cases b
    · rcases low n 'F' _ h with h | h <;> exact absurd h (by decide)
    · rcases low n 'T' _ h with h | h <;> exact absurd h (by decide)
  cases a with
  | int m =>
    cases b with
    | int n => rw [intText_inj h]
    | bool c => exact absurd h (notBool m c)
  | bool d =>
    cases b with
    | int n => exact absurd h.symm (notBool n d)
    | bool c => cases c <;> cases d <;> first | rfl | exact absurd h (by decide)

theorem keyPart_word (a : KeyPart) : ∀ c ∈ a.text.toList, isSep c = false := by
  cases a with
  | int n =>
    intro c hc
    have hc : c ∈ (toString n).toList := hc
    rw [intText] at hc
    rcases List.mem_append.1 hc with h | h
    · split at h
      · rw [List.mem_singleton.1 h]; decide
      · cases h
    · exact isDigit_noSep (toDigits_isDigit _ _ h)
  | bool b => cases b <;> decide

/-- **C101** The texts of different keys differ, so the dictionaries, which are indexed by texts, keep
the cells apart. -/
theorem C101_key (a b : Key) (h : keyText a = keyText b) : a = b := by
  have hw : ∀ k : Key, words (keyText k) = [("(" ++ k.1.text ++ ",").toList, (k.2.text ++ ")").toList] := by
    intro k
    have h1 : IsWord ("(" ++ k.1.text ++ ",") :=
      isWord_append (isWord_append ⟨by decide, by decide⟩ (keyPart_word _)) (by decide)
    have h2 : IsWord (k.2.text ++ ")") := by
      refine ⟨by simp, fun c hc => ?_⟩
      rw [String.toList_append] at hc
      rcases List.mem_append.1 hc with h | h
      · exact keyPart_word _ c h
      · rw [List.mem_singleton.1 h]; decide
    rw [show keyText k = ("(" ++ k.1.text ++ ",") ++ (" " ++ (k.2.text ++ ")")) by
      unfold keyText
      rw [show ", " = "," ++ " " from rfl]
      simp only [String.append_assoc]]
    rw [words_space, words_word h1, words_word h2]
    rfl
  have hh := congrArg words h
  rw [hw, hw] at hh
  simp only [String.toList_append, List.cons.injEq, List.append_cancel_right_eq, List.append_cancel_left_eq,
    and_true] at hh
  exact Prod.ext (keyPart_inj hh.1) (keyPart_inj hh.2)

/-! ## Labels -/

/-- A word that shows a number with `d` digits after the point. -/
def Spec.Shows (d : ℕ) (w : List Char) : XF K → Prop
  | .fin x => Spec.IsDecimal d (String.ofList w) ∧
      |(Spec.readDecimal (String.ofList w) : K) - x| ≤ 1 / (2 * 10 ^ d)
  | .nan => w = "nan".toList
  | .pinf => w = "inf".toList
  | .ninf => w = "-inf".toList

theorem shows_fixed (d : ℕ) (x : XF K) : Spec.Shows d (fixed d x).toList x := by
  cases x with
  | fin x =>
    show Spec.IsDecimal d (String.ofList (fixed d (.fin x)).toList) ∧ _
    rw [String.ofList_toList]
    exact ⟨C100_digits d x, C100_near d x⟩
  | nan => rfl
  | pinf => rfl
  | ninf => rfl

/-- In the text, the label is followed by the number. -/
def Spec.Says (text label : String) (d : ℕ) (x : XF K) : Prop :=
  ∃ w, (words label ++ [w]) <:+: words text ∧ Spec.Shows d w x

theorem says_mk {text label : String} {d : ℕ} {x : XF K}
    (h : (words label ++ [(fixed d x).toList]) <:+: words text) : Spec.Says text label d x :=
  ⟨_, h, shows_fixed d x⟩

theorem infix_skip {α : Type} {p l : List α} (a : List α) (h : p <:+: l) : p <:+: a ++ l :=
  h.trans ⟨a, [], by simp⟩

theorem infix_here {α : Type} {a b : List α} (w : α) (l : List α) (h : a = b) : (a ++ [w]) <:+: b ++ w :: l :=
  ⟨[], l, by rw [h]; simp⟩

theorem infix_two {α : Type} (a b w : α) (l : List α) : ([a, b] ++ [w]) <:+: a :: b :: w :: l :=
  ⟨[], l, rfl⟩

theorem infix_pair {α : Type} (a b w : α) (l : List α) : [a, b, w] <:+: [a, b] ++ w :: l := ⟨[], l, rfl⟩

/-- Finds a label in a list of words. -/
macro "find_label" : tactic => `(tactic|
  repeat (first
    | (with_reducible refine infix_here _ _ ?_; decide)
    | with_reducible refine infix_skip _ ?_
    | with_reducible refine List.infix_cons ?_))

/-- **C101** What stands behind a label in the text of a ring is the attribute of that name. -/
theorem C101_ring_labels (r : RingObj K) : Spec.Says r.text "Inner Radius:" 4 r.inner ∧
    Spec.Says r.text "Outer Radius:" 4 r.outer ∧ Spec.Says r.text "Transmission:" 4 r.transmission ∧
    Spec.Says r.text "Inclination:" 4 r.inclination ∧ Spec.Says r.text "Tilt:" 4 r.tilt := by
  refine ⟨says_mk ?_, says_mk ?_, says_mk ?_, says_mk ?_, says_mk ?_⟩ <;> rw [words_ring] <;> find_label

theorem ringLine_at (n : ℕ) (l : List (RingObj K)) (i : ℕ) (hi : i < l.length) :
    [(toString (n + i)).toList, (fixed 2 l[i].inner).toList, (fixed 2 l[i].outer).toList,
      (fixed 2 l[i].transmission).toList] <:+:
    (ringLines n (l.map (·.inner)) (l.map (·.outer)) (l.map (·.transmission))).flatMap fun a => words a.text := by
  induction l generalizing n i with
  | nil => cases hi
  | cons a l ih =>
    simp only [List.map_cons, ringLines]
    rw [List.flatMap_cons, words_ringLine]
    cases i with
    | zero =>
      simp only [List.getElem_cons_zero, Nat.add_zero]
      exact (List.prefix_append _ _).isInfix
    | succ i =>
      have := ih (n + 1) i (by simpa using hi)
      rw [show n + 1 + i = n + (i + 1) by omega] at this
      simp only [List.getElem_cons_succ]
      exact infix_skip _ this

/-- **C101** The text of a ring system tells its geometry, and has for each ring, counted from one, its
number, radii and transmission. -/
theorem C101_system_labels (s : RSys K) : Spec.Says s.report.text "Planet Radius:" 2 s.planet ∧
    Spec.Says s.report.text "Inclination:" 2 s.inclination ∧ Spec.Says s.report.text "Tilt:" 2 s.tilt ∧
    ∀ (i : ℕ) (hi : i < s.rings.length), ∃ a b c,
      [(toString (i + 1)).toList, a, b, c] <:+: words s.report.text ∧ Spec.Shows 2 a s.rings[i].inner ∧
      Spec.Shows 2 b s.rings[i].outer ∧ Spec.Shows 2 c s.rings[i].transmission := by
  refine ⟨says_mk ?_, says_mk ?_, says_mk ?_, fun i hi => ?_⟩
  · rw [words_system]; dsimp only [RSys.report]; find_label
  · rw [words_system]; dsimp only [RSys.report]; find_label
  · rw [words_system]; dsimp only [RSys.report]; find_label
  · refine ⟨_, _, _, ?_, shows_fixed _ _, shows_fixed _ _, shows_fixed _ _⟩
    have h := ringLine_at 1 s.rings i hi
    rw [Nat.add_comm 1 i] at h
    have e : s.report.lines = ringLines 1 (s.rings.map (·.inner)) (s.rings.map (·.outer))
      (s.rings.map (·.transmission)) := rfl
    rw [words_system, e]
    refine h.trans ?_
    generalize List.flatMap (fun a : RingLine K => words a.text) _ = L
    repeat first
      | with_reducible exact (List.prefix_append _ _).isInfix
      | with_reducible refine infix_skip _ ?_
      | with_reducible refine List.infix_cons ?_

/-- In the text, the name is followed by the first and the last number of the vector and its length. -/
def Spec.SaysRange (text name : String) (l : List (XF K)) : Prop :=
  ∃ x y v w, l.head? = some x ∧ l.getLast? = some y ∧ Spec.Shows 2 v x ∧ Spec.Shows 2 w y ∧
    [name.toList, v, "->".toList, w, ("(" ++ toString l.length ++ ")").toList] <:+: words text

/-- **C101** The text of grid parameters has for each vector its ends and its length, and the shape.  The
scale factors go from the largest down to one and up again. -/
theorem C101_params_labels (g : GridParams K) (p : ParamsReport K) (h : g.report = .ok p) :
    Spec.SaysRange p.text "dx:" g.dx.data ∧ Spec.SaysRange p.text "dy:" g.dy.data ∧
    (∃ x v w, g.rfArray.data.head? = some x ∧ Spec.Shows 2 v x ∧ Spec.Shows 2 w (.fin (1 : K)) ∧
      ["rf:".toList, v, "->".toList, w, "->".toList, v,
        ("(" ++ toString g.rfArray.data.length ++ ")").toList] <:+: words p.text) ∧
    ["grid_shape:".toList, ("(" ++ toString g.gridShape.1 ++ ",").toList, (toString g.gridShape.2.1 ++ ",").toList,
      (toString g.gridShape.2.2 ++ ")").toList] <:+: words p.text := by
  have range : ∀ (l : List (XF K)) r, rangeOf l = .ok r →
      l.head? = some r.first ∧ l.getLast? = some r.last ∧ r.count = l.length := by
    intro l r h
    unfold rangeOf at h
    cases l with
    | nil => cases h
    | cons a l =>
      rw [List.getLast?_cons] at h ⊢
      cases h; exact ⟨rfl, rfl, rfl⟩
  unfold GridParams.report at h
  cases h1 : rangeOf g.getVectors.2.1 with
  | error e => rw [h1] at h; cases h
  | ok a =>
  cases h2 : rangeOf g.getVectors.1 with
  | error e => rw [h1, h2] at h; cases h
  | ok b =>
  cases h3 : rangeOf g.getVectors.2.2 with
  | error e => rw [h1, h2, h3] at h; cases h
  | ok c =>
    rw [h1, h2, h3] at h
    cases h
    obtain ⟨xa, ya, na⟩ := range g.dx.data _ h1
    obtain ⟨xb, yb, nb⟩ := range g.dy.data _ h2
    obtain ⟨xc, yc, nc⟩ := range g.rfArray.data _ h3
    have e1 : words ("dx" ++ ": ") = ["dx:".toList] := by decide
    have e2 : words ("dy" ++ ": ") = ["dy:".toList] := by decide
    have e3 : words "rf: " = ["rf:".toList] := by decide
    have e4 : words " -> " = ["->".toList] := by decide
    have e5 : words "grid_shape: " = ["grid_shape:".toList] := by decide
    have hw := words_params (⟨a, b, c.first, c.count, g.gridShape⟩ : ParamsReport K)
    rw [e1, e2, e3, e4, e5] at hw
    simp only [List.cons_append, List.nil_append] at hw
    rw [← nc]
    refine ⟨⟨_, _, _, _, xa, ya, shows_fixed _ _, shows_fixed _ _, ?_⟩,
      ⟨_, _, _, _, xb, yb, shows_fixed _ _, shows_fixed _ _, ?_⟩,
      ⟨_, _, _, xc, shows_fixed _ _, shows_fixed _ _, ?_⟩, ?_⟩
    · rw [← na, hw]
      refine infix_skip _ (infix_skip _ ?_)
      exact ⟨[], _, rfl⟩
    · rw [← nb, hw]
      refine infix_skip _ (infix_skip _ ?_)
      refine infix_skip [_, _, _, _, _] ?_
      exact ⟨[], _, rfl⟩
    · rw [hw]
      refine infix_skip _ (infix_skip _ ?_)
      refine infix_skip [_, _, _, _, _, _, _, _, _, _] ?_
      exact ⟨[], _, rfl⟩
    · rw [hw]
      refine infix_skip _ (infix_skip _ ?_)
      refine infix_skip [_, _, _, _, _, _, _, _, _, _, _, _, _, _, _, _, _] ?_
      exact List.infix_refl _

/-- **C101** The text of diagnostics has the number of keys. -/
theorem C101_diagnostics_labels (d : Diagnostics K) :
    (words "diagnostics saved:" ++ [(toString (d.fyDict.map Prod.fst).dedup.length).toList]) <:+:
      words (diagnosticsText d.report) := by
  rw [words_diagnostics]
  unfold Diagnostics.report
  find_label

/-- **C101** The text of a property has its name and unit, the limits of its colours, the mean and the median
of its data, and, if it has a mask, how much is masked. -/
theorem C101_property_labels (p : GProp K) (r : PropReport K) (h : p.report = .ok r) :
    ∃ lo hi, p.vmin = some lo ∧ p.vmax = some hi ∧
      Spec.Says r.text "min value:" 4 lo ∧ Spec.Says r.text "max value:" 4 hi ∧
      Spec.Says r.text "mean value:" 4 (nanmean p.data.data) ∧
      Spec.Says r.text "median value:" 4 (nanmedian p.data.data) ∧
      (∀ m, p.mask = some m → ∃ w, ["mask".toList, "[out]:".toList, w ++ ['%']] <:+: words r.text ∧
        Spec.Shows 4 w (maskedPercentage (K := K) m)) := by
  have ht := words_prop_text r _ (report_titled p r h)
  unfold GProp.report at h
  cases h1 : p.vmin with
  | none => rw [h1] at h; cases h
  | some lo =>
  cases h2 : p.vmax with
  | none => rw [h1, h2] at h; cases h
  | some hi =>
    rw [h1, h2] at h
    cases h
    unfold bodyWords at ht
    dsimp only at ht
    refine ⟨lo, hi, rfl, rfl, says_mk ?_, says_mk ?_, says_mk ?_, says_mk ?_, fun m hm => ?_⟩
    · rw [ht]; find_label
    · rw [ht]; find_label
    · rw [ht]; find_label
    · rw [ht]; find_label
    · refine ⟨(fixed 4 (maskedPercentage (K := K) m)).toList, ?_, shows_fixed _ _⟩
      rw [ht, words_mask, hm]
      simp only [Option.map_some, String.toList_append, show "%".toList = ['%'] from rfl]
      repeat first
        | with_reducible exact List.infix_refl _
        | with_reducible refine infix_skip _ ?_
        | with_reducible refine List.infix_cons ?_

/-- **C101** The text of a gradient has its position, and, if it has a mask, what was measured. -/
theorem C101_gradient_labels (g : GGrad K) (r : GradReport K) (h : g.report = .ok r) :
    Spec.Says r.text "@ pos =" 4 g.position.num ∧
    (g.prop.mask.isSome → ∃ m e o t, g.measured = some m ∧ g.error = some e ∧ g.orbital = some o ∧
      g.transmission = some t ∧ Spec.Says r.text "measured gradient:" 4 m.num ∧
      Spec.Says r.text "measured error:" 4 e.num ∧ Spec.Says r.text "orbital scale:" 4 o.num ∧
      Spec.Says r.text "transmission change:" 4 t.num) := by
  have ht := words_grad r _ (grad_titled g r h)
  unfold GGrad.report at h
  cases h1 : g.prop.report with
  | error e => rw [h1] at h; cases h
  | ok p =>
  cases h2 : g.measuredReport with
  | error e => rw [h1, h2] at h; cases h
  | ok m =>
    rw [h1, h2] at h
    cases h
    refine ⟨says_mk ?_, fun hm => ?_⟩
    · rw [ht]
      refine infix_skip _ ?_
      exact ⟨[], _, rfl⟩
    · unfold GGrad.measuredReport at h2
      cases hk : g.prop.mask with
      | none => rw [hk] at hm; cases hm
      | some k =>
      rw [hk] at h2
      cases a1 : g.measured with
      | none => rw [a1] at h2; cases h2
      | some x =>
      cases a2 : g.error with
      | none => rw [a1, a2] at h2; cases h2
      | some y =>
      cases a3 : g.orbital with
      | none => rw [a1, a2, a3] at h2; cases h2
      | some z =>
      cases a4 : g.transmission with
      | none => rw [a1, a2, a3, a4] at h2; cases h2
      | some w =>
        rw [a1, a2, a3, a4] at h2
        cases h2
        rw [words_measured] at ht
        refine ⟨x, y, z, w, rfl, rfl, rfl, rfl, says_mk ?_, says_mk ?_, says_mk ?_, says_mk ?_⟩
        · rw [ht, show words "measured gradient:" = ["measured".toList, "gradient:".toList] by decide]
          repeat first
            | with_reducible exact infix_two _ _ _ _
            | with_reducible refine infix_skip _ ?_
            | with_reducible refine List.infix_cons ?_
        · rw [ht]; find_label
        · rw [ht]; find_label
        · rw [ht]; find_label

/-- **C101** The text of a grid ends with the share of the cells that are masked and with the worst
deviation. -/
theorem C101_grid_labels (s : Shallot K) (r : GridReport K) (h : s.report = .ok r) :
    ∃ m x, s.combinedMask = .ok m ∧ s.worstDeviation = .ok x ∧
      Spec.Says r.text "worst interpolation fit:" 9 x ∧
      ∃ w, ["percentage".toList, "masked:".toList, w ++ ['%']] <:+: words r.text ∧
        Spec.Shows 2 w (maskedPercentage (K := K) m) := by
  have ht := words_grid r
  unfold lastWords at ht
  have hm : ∃ m x, s.combinedMask = .ok m ∧ s.worstDeviation = .ok x ∧ r.worst = x ∧ r.masked = maskedPercentage m := by
    unfold Shallot.report at h
    cases h1 : s.worstDeviation with
    | error e => rw [h1] at h; cases h
    | ok w =>
    cases h2 : s.combinedMask with
    | error e => rw [h1, h2] at h; cases h
    | ok m =>
    cases h3 : s.params.report with
    | error e => rw [h1, h2, h3] at h; cases h
    | ok p =>
    cases h4 : s.diskRadius.report with
    | error e => rw [h1, h2, h3, h4] at h; cases h
    | ok a =>
    cases h5 : s.tilt.report with
    | error e => rw [h1, h2, h3, h4, h5] at h; cases h
    | ok b =>
    cases h6 : s.inclination.report with
    | error e => rw [h1, h2, h3, h4, h5, h6] at h; cases h
    | ok c =>
    cases h7 : Shallot.gradientReports (s.gradients.getD []) with
    | error e => rw [h1, h2, h3, h4, h5, h6, h7] at h; cases h
    | ok gs =>
      rw [h1, h2, h3, h4, h5, h6, h7] at h
      cases h
      exact ⟨m, w, rfl, rfl, rfl, rfl⟩
  obtain ⟨m, x, h1, h2, h3, h4⟩ := hm
  rw [h3, h4] at ht
  refine ⟨m, x, h1, h2, says_mk ?_, (fixed 2 (maskedPercentage (K := K) m)).toList, ?_, shows_fixed _ _⟩
  · rw [ht]; find_label
  · rw [ht, show words "percentage masked: " = ["percentage".toList, "masked:".toList] by decide]
    simp only [String.toList_append, show "%".toList = ['%'] from rfl]
    repeat first
      | with_reducible exact infix_pair _ _ _ _
      | with_reducible refine infix_skip _ ?_
      | with_reducible refine List.infix_cons ?_

end

/-! ## Concrete cases -/

open Spec

/-- Two rings that differ by less than what is printed print the same, two that differ by more do not, so
the hypothesis of `C101_ring` is met and its conclusion cannot be that the rings are equal. -/
example : (⟨.fin (1/100000), .fin 2, .fin (1/2), .fin 75, .nan⟩ : RingObj ℚ).text
      = (⟨.fin (2/100000), .fin 2, .fin (1/2), .fin 75, .nan⟩ : RingObj ℚ).text ∧
    (⟨.fin (1/100000), .fin 2, .fin (1/2), .fin 75, .nan⟩ : RingObj ℚ).text
      ≠ (⟨.fin (9/100000), .fin 2, .fin (1/2), .fin 75, .nan⟩ : RingObj ℚ).text := by decide +kernel

/-- The same for systems of two rings. -/
example : (⟨.fin 1, .fin 0, .fin 0, [⟨.fin 1, .fin 2, .fin 0, .fin 0, .fin 0⟩, ⟨.fin 2, .fin 3, .fin (1/1000), .fin 0, .fin 0⟩]⟩ :
      RSys ℚ).report.text
    = (⟨.fin 1, .fin 0, .fin 0, [⟨.fin 1, .fin 2, .fin 0, .fin 0, .fin 0⟩, ⟨.fin 2, .fin 3, .fin (2/1000), .fin 0, .fin 0⟩]⟩ :
      RSys ℚ).report.text := by decide +kernel

/-- A property on a grid of two by two centres and three factors. -/
def Spec.shownProp (n : PropName) (u : PropUnit) (x : ℚ) : GProp ℚ :=
  ⟨n, u, firstGrid, ⟨[2, 2, 3], .nan :: .fin x :: List.replicate 10 (.fin 2)⟩,
    some ⟨[2, 2, 3], true :: List.replicate 11 false⟩, some (.fin x), some (.fin 2), "viridis", 11⟩

/-- A grid with a gradient that has been measured. -/
def Spec.shownGrid (x : ℚ) : Shallot ℚ :=
  ⟨firstGrid, .int 3, some (Diagnostics.new firstGrid), [], ⟨[2, 2, 1], []⟩,
    shownProp .diskRadius .eclipseDuration x, shownProp .inclination .degree 1, shownProp .tilt .degree 1,
    shownProp .fxMap .none 1, shownProp .fyMap .none 1, some (shownProp .diagnosticMap .eclipseDuration 1),
    some [⟨shownProp .gradient .none x, .float (.fin (1/4)), some (.float (.fin x)), some (.int 0),
      some (.int 1), some (.int 1)⟩], none, none, none, none⟩

/-- Two grids that differ in the data of the disk radius and of a gradient and print the same. -/
example : (shownGrid (1/100000)).report.map GridReport.text = (shownGrid (2/100000)).report.map GridReport.text ∧
    ((shownGrid (1/100000)).report.map GridReport.text).toOption.isSome ∧
    shownGrid (1/100000) ≠ shownGrid (2/100000) := by decide +kernel

/-- The same for its disk radius, its gradient and its parameters. -/
example : (shownProp .diskRadius .eclipseDuration (1/100000)).report.map PropReport.text
      = (shownProp .diskRadius .eclipseDuration (2/100000)).report.map PropReport.text ∧
    ((shownProp .diskRadius .eclipseDuration (1/100000)).report.map PropReport.text).toOption.isSome ∧
    ((shownGrid 1).gradients.map fun l => l.map fun g => g.report.toOption.isSome) = some [true] ∧
    (firstGrid.report.map ParamsReport.text).toOption.isSome := by decide +kernel

/-- A viewer along the third axis, at the same place but for what is not printed. -/
example : (⟨2, ⟨[], []⟩, [], 0, none, .fin 0, false, [], (.fin (1/100000), some .vertical), []⟩ : Viewer ℚ).titleText .tilt .degree
    = (⟨2, ⟨[], []⟩, [], 0, none, .fin 0, false, [], (.fin (2/100000), some .vertical), []⟩ : Viewer ℚ).titleText .tilt .degree := by
  decide +kernel

/-- Keys. -/
example : keyText (.int 12, .int 3) = "(12, 3)" ∧ keyText (.int 1, .int 23) = "(1, 23)" ∧
    keyText (.bool true, .int (-1)) = "(True, -1)" := by decide +kernel

end Beyonce
