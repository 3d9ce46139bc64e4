import Verif.Props.Words

/-!
# C101: what is printed tells the values

Two objects that print the same text are the same to the printed precision.
-/

namespace Beyonce

/-- Two numbers that are the same up to a unit of digit `d` after the point. -/
def Spec.Agree {K : Type} [Field K] [LinearOrder K] (d : ℕ) : XF K → XF K → Prop
  | .fin x, .fin y => |x - y| ≤ 1 / 10 ^ d
  | .nan, .nan => True
  | .pinf, .pinf => True
  | .ninf, .ninf => True
  | _, _ => False

section
set_option linter.unusedSectionVars false
variable {K : Type} [Field K] [LinearOrder K] [IsStrictOrderedRing K] [FloorRing K]
open Spec

/-- **C101** Two numbers that print the same are the same to the printed precision. -/
theorem C101_number (d : ℕ) (a b : XF K) (h : fixed d a = fixed d b) : Spec.Agree d a b := by
  have word : ∀ (x : K) (s : String), ('.' ∉ s.toList) → fixed d (.fin x) ≠ s := by
    intro x s hs he
    obtain ⟨u, v, w, hh, -⟩ := C100_digits d x
    rw [he] at hh
    exact hs (by rw [hh]; simp)
  cases a with
  | fin x =>
    cases b with
    | fin y =>
      have hx := C100_near d x
      have hy := C100_near d y
      rw [h] at hx
      rw [abs_le] at hx hy
      show |x - y| ≤ 1 / 10 ^ d
      have : (1 : K) / 10 ^ d = 1 / (2 * 10 ^ d) + 1 / (2 * 10 ^ d) := by field_simp; ring
      rw [this, abs_le]
      constructor <;> linarith [hx.1, hx.2, hy.1, hy.2]
    | nan => exact absurd h (word x _ (by simp only [fixed]; decide))
    | pinf => exact absurd h (word x _ (by simp only [fixed]; decide))
    | ninf => exact absurd h (word x _ (by simp only [fixed]; decide))
  | nan =>
    cases b with
    | fin y => exact absurd h.symm (word y _ (by simp only [fixed]; decide))
    | nan => trivial
    | pinf => exact absurd h (by simp only [fixed]; decide)
    | ninf => exact absurd h (by simp only [fixed]; decide)
  | pinf =>
    cases b with
    | fin y => exact absurd h.symm (word y _ (by simp only [fixed]; decide))
    | nan => exact absurd h (by simp only [fixed]; decide)
    | pinf => trivial
    | ninf => exact absurd h (by simp only [fixed]; decide)
  | ninf =>
    cases b with
    | fin y => exact absurd h.symm (word y _ (by simp only [fixed]; decide))
    | nan => exact absurd h (by simp only [fixed]; decide)
    | pinf => exact absurd h (by simp only [fixed]; decide)
    | ninf => trivial

theorem agree_of_words {d : ℕ} {a b : XF K} (h : (fixed d a).toList = (fixed d b).toList) : Spec.Agree d a b :=
  C101_number d a b (String.toList_inj.1 h)

/-! ## Rings -/

/-- The words of the text of a ring. -/
theorem words_ring (r : RingObj K) : words r.text
    = words "============================" ++ (words "***** RING INFORMATION *****" ++
      (words "============================\n" ++
      (words "Inner Radius: " ++ (fixed 4 r.inner).toList :: (words " [R*]" ++
      (words "Outer Radius: " ++ (fixed 4 r.outer).toList :: (words " [R*]" ++
      (words "Transmission: " ++ (fixed 4 r.transmission).toList :: (words " [-]" ++
      (words "Inclination: " ++ (fixed 4 r.inclination).toList :: (words " [deg]" ++
      (words "Tilt: " ++ (fixed 4 r.tilt).toList :: (words " [deg]" ++
      words "\n============================")))))))))))) := by
  unfold RingObj.text
  rw [words_joinLines]
  simp only [List.flatMap_cons, List.flatMap_nil]
  rw [words_field "Inner Radius: " 8 " [R*]" (isWord_fixed _ _) (by decide) (by decide),
    words_field "Outer Radius: " 8 " [R*]" (isWord_fixed _ _) (by decide) (by decide),
    words_field "Transmission: " 8 " [-]" (isWord_fixed _ _) (by decide) (by decide),
    words_field "Inclination: " 9 " [deg]" (isWord_fixed _ _) (by decide) (by decide),
    words_field "Tilt: " 16 " [deg]" (isWord_fixed _ _) (by decide) (by decide),
    show words "" = [] by decide]
  simp only [List.append_assoc, List.cons_append, List.nil_append, List.append_nil]

/-- **C101** Rings that print the same agree in all five attributes to four digits. -/
theorem C101_ring (r s : RingObj K) (h : r.text = s.text) : Spec.Agree 4 r.inner s.inner ∧
    Spec.Agree 4 r.outer s.outer ∧ Spec.Agree 4 r.transmission s.transmission ∧
    Spec.Agree 4 r.inclination s.inclination ∧ Spec.Agree 4 r.tilt s.tilt := by
  have hw := congrArg words h
  rw [words_ring, words_ring] at hw
  simp only [List.append_cancel_left_eq, List.cons.injEq] at hw
  obtain ⟨a, b, c, d, e, -⟩ := hw
  exact ⟨agree_of_words a, agree_of_words b, agree_of_words c, agree_of_words d, agree_of_words e⟩

/-! ## Ring systems -/

theorem words_ringLine (l : RingLine K) : words l.text
    = [(toString l.number).toList, (fixed 2 l.inner).toList, (fixed 2 l.outer).toList,
      (fixed 2 l.transmission).toList] := by
  unfold RingLine.text
  rw [words_last _ 13 (isWord_fixed _ _) (endsSep_append _ (by decide)),
    words_field _ 11 "     " (isWord_fixed _ _) (endsSep_append _ (by decide)) (by decide),
    words_field _ 11 "     " (isWord_fixed _ _) (endsSep_append _ (by decide)) (by decide),
    words_right _ (by decide), words_rjust, words_word (isWord_nat _), show words "     " = [] by decide]
  rfl

theorem words_system (s : SysReport K) : words s.text
    = words "\n======================================================================" ++
      (words "********************** RING SYSTEM INFORMATION ***********************" ++
      (words "======================================================================\n" ++
      (words "Geometric Parameters" ++ (words "--------------------\n" ++
      (words "Planet Radius: " ++ (fixed 2 s.planet).toList :: (words " [R*]" ++
      (words "Inclination: " ++ (fixed 2 s.inclination).toList :: (words " [deg]" ++
      (words "Tilt: " ++ (fixed 2 s.tilt).toList :: (words " [deg]" ++
      (words "\n" ++ (words "Ring Parameters" ++ (words "---------------\n" ++
      (words "Ring #     Inner Radius     Outer Radius     Transmission" ++
      (s.lines.flatMap (fun l => words l.text) ++
      words "======================================================================"))))))))))))))) := by
  unfold SysReport.text
  rw [words_joinLines]
  simp only [List.flatMap_append, List.flatMap_cons, List.flatMap_nil]
  rw [words_field "Planet Radius: " 7 " [R*]" (isWord_fixed _ _) (by decide) (by decide),
    words_field "Inclination: " 9 " [deg]" (isWord_fixed _ _) (by decide) (by decide),
    words_field "Tilt: " 16 " [deg]" (isWord_fixed _ _) (by decide) (by decide),
    show words "" = [] by decide, List.flatMap_map]
  simp only [List.append_assoc, List.cons_append, List.nil_append, List.append_nil]

/-- Two lines of the table that agree. -/
def Spec.SameLine (a b : RingLine K) : Prop :=
  a.number = b.number ∧ Spec.Agree 2 a.inner b.inner ∧ Spec.Agree 2 a.outer b.outer ∧
    Spec.Agree 2 a.transmission b.transmission

theorem same_lines (l m : List (RingLine K)) (h : l.flatMap (fun a => words a.text) = m.flatMap fun a => words a.text) :
    List.Forall₂ Spec.SameLine l m := by
  induction l generalizing m with
  | nil =>
    cases m with
    | nil => exact .nil
    | cons b m => rw [List.flatMap_cons, words_ringLine] at h; cases h
  | cons a l ih =>
    cases m with
    | nil => rw [List.flatMap_cons, words_ringLine] at h; cases h
    | cons b m =>
      rw [List.flatMap_cons, List.flatMap_cons, words_ringLine, words_ringLine] at h
      simp only [List.cons_append, List.nil_append, List.cons.injEq] at h
      obtain ⟨h1, h2, h3, h4, h5⟩ := h
      exact .cons ⟨toString_inj h1, agree_of_words h2, agree_of_words h3, agree_of_words h4⟩ (ih m h5)

theorem same_rings (n : ℕ) (l m : List (RingObj K))
    (h : List.Forall₂ Spec.SameLine (ringLines n (l.map (·.inner)) (l.map (·.outer)) (l.map (·.transmission)))
      (ringLines n (m.map (·.inner)) (m.map (·.outer)) (m.map (·.transmission)))) :
    List.Forall₂ (fun a b => Spec.Agree 2 a.inner b.inner ∧ Spec.Agree 2 a.outer b.outer ∧
      Spec.Agree 2 a.transmission b.transmission) l m := by
  induction l generalizing m n with
  | nil =>
    cases m with
    | nil => exact .nil
    | cons b m => simp only [List.map_nil, List.map_cons, ringLines] at h; cases h
  | cons a l ih =>
    cases m with
    | nil => simp only [List.map_nil, List.map_cons, ringLines] at h; cases h
    | cons b m =>
      simp only [List.map_cons, ringLines, List.forall₂_cons] at h
      exact .cons h.1.2 (ih (n + 1) m h.2)

/-- **C101** Ring systems that print the same have the same number of rings, and agree in their
geometry and in every radius and transmission to two digits. -/
theorem C101_system (s t : RSys K) (h : s.report.text = t.report.text) : Spec.Agree 2 s.planet t.planet ∧
    Spec.Agree 2 s.inclination t.inclination ∧ Spec.Agree 2 s.tilt t.tilt ∧
    List.Forall₂ (fun a b => Spec.Agree 2 a.inner b.inner ∧ Spec.Agree 2 a.outer b.outer ∧
      Spec.Agree 2 a.transmission b.transmission) s.rings t.rings := by
  have hw := congrArg words h
  rw [words_system, words_system] at hw
  simp only [List.append_cancel_left_eq, List.cons.injEq, List.append_cancel_right_eq] at hw
  obtain ⟨a, b, c, d⟩ := hw
  refine ⟨agree_of_words a, agree_of_words b, agree_of_words c, ?_⟩
  exact same_rings 1 s.rings t.rings (same_lines _ _ d)

/-! ## Grid parameters -/

/-- A number in brackets at the end of a line. -/
theorem words_count (pre : String) (n : ℕ) :
    words (pre ++ " (" ++ toString n ++ ")") = words pre ++ [("(" ++ toString n ++ ")").toList] := by
  have hw : IsWord ("(" ++ toString n ++ ")") :=
    isWord_append (isWord_append ⟨by decide, by decide⟩ (isWord_nat n).2) (by decide)
  rw [show pre ++ " (" ++ toString n ++ ")" = pre ++ (" " ++ ("(" ++ toString n ++ ")")) by
      simp only [String.append_assoc]; rfl,
    words_right _ (startsSep_append _ (by decide)), words_left _ (by decide), words_word hw]
  rfl

theorem count_inj {m n : ℕ} (h : ("(" ++ toString m ++ ")").toList = ("(" ++ toString n ++ ")").toList) : m = n := by
  simp only [String.toList_append, List.append_cancel_right_eq, List.append_cancel_left_eq] at h
  exact toString_inj h

theorem words_range (name : String) (r : Range K) : words (r.text name)
    = words (name ++ ": ") ++ (fixed 2 r.first).toList :: (words " -> " ++
      [(fixed 2 r.last).toList, ("(" ++ toString r.count ++ ")").toList]) := by
  unfold Range.text
  rw [words_count, words_last _ 6 (isWord_fixed _ _) (endsSep_append _ (by decide)),
    words_field (name ++ ": ") 6 " -> " (isWord_fixed _ _) (endsSep_append _ (by decide)) (by decide)]
  simp only [List.append_assoc, List.cons_append, List.nil_append]

theorem words_space (a b : String) : words (a ++ (" " ++ b)) = words a ++ words b := by
  rw [words_right _ (startsSep_append _ (by decide)), words_left _ (by decide), show words " " = [] by decide]
  rfl

theorem words_triple (t : ℕ × ℕ × ℕ) : words (tripleText t)
    = [("(" ++ toString t.1 ++ ",").toList, (toString t.2.1 ++ ",").toList, (toString t.2.2 ++ ")").toList] := by
  have h1 : IsWord ("(" ++ toString t.1 ++ ",") :=
    isWord_append (isWord_append ⟨by decide, by decide⟩ (isWord_nat _).2) (by decide)
  have h2 : IsWord (toString t.2.1 ++ ",") := isWord_append (isWord_nat _) (by decide)
  have h3 : IsWord (toString t.2.2 ++ ")") := isWord_append (isWord_nat _) (by decide)
  rw [show tripleText t = ("(" ++ toString t.1 ++ ",") ++ (" " ++ ((toString t.2.1 ++ ",") ++
      (" " ++ (toString t.2.2 ++ ")")))) by
    unfold tripleText
    rw [show ", " = "," ++ " " from rfl]
    simp only [String.append_assoc]]
  rw [words_space, words_space, words_word h1, words_word h2, words_word h3]
  rfl

/-- Reports of parameters that are the same to two digits. -/
def Spec.SameParams (a b : ParamsReport K) : Prop :=
  Spec.Agree 2 a.dx.first b.dx.first ∧ Spec.Agree 2 a.dx.last b.dx.last ∧ a.dx.count = b.dx.count ∧
  Spec.Agree 2 a.dy.first b.dy.first ∧ Spec.Agree 2 a.dy.last b.dy.last ∧ a.dy.count = b.dy.count ∧
  Spec.Agree 2 a.maxRf b.maxRf ∧ a.countRf = b.countRf ∧ a.gridShape = b.gridShape

theorem words_params (p : ParamsReport K) : words p.text
    = words "Grid Parameters" ++ (words dashes ++
      (words ("dx" ++ ": ") ++ (fixed 2 p.dx.first).toList :: (words " -> " ++ (fixed 2 p.dx.last).toList ::
        ("(" ++ toString p.dx.count ++ ")").toList ::
      (words ("dy" ++ ": ") ++ (fixed 2 p.dy.first).toList :: (words " -> " ++ (fixed 2 p.dy.last).toList ::
        ("(" ++ toString p.dy.count ++ ")").toList ::
      (words "rf: " ++ (fixed 2 p.maxRf).toList :: (words " -> " ++ (fixed 2 (.fin 1 : XF K)).toList ::
        (words " -> " ++ (fixed 2 p.maxRf).toList :: ("(" ++ toString p.countRf ++ ")").toList ::
      (words "grid_shape: " ++ [("(" ++ toString p.gridShape.1 ++ ",").toList,
        (toString p.gridShape.2.1 ++ ",").toList, (toString p.gridShape.2.2 ++ ")").toList]))))))))) := by
  unfold ParamsReport.text
  rw [words_joinLines]
  simp only [List.flatMap_cons, List.flatMap_nil]
  rw [words_range, words_range, words_count,
    words_last _ 6 (isWord_fixed _ _) (endsSep_append _ (by decide)),
    words_field _ 6 " -> " (isWord_fixed _ _) (endsSep_append _ (by decide)) (by decide),
    words_field "rf: " 6 " -> " (isWord_fixed _ _) (by decide) (by decide),
    words_left (a := "grid_shape: ") _ (by decide), words_triple, show words "" = [] by decide]
  simp only [List.append_assoc, List.cons_append, List.nil_append, List.append_nil]

/-- The words of a report of parameters tell the parameters and where the report ends. -/
theorem params_of_words (p q : ParamsReport K) (l m : List (List Char))
    (h : words p.text ++ l = words q.text ++ m) : Spec.SameParams p q ∧ l = m := by
  rw [words_params, words_params] at h
  simp only [List.append_assoc, List.cons_append, List.nil_append, List.append_cancel_left_eq,
    List.cons.injEq] at h
  obtain ⟨h1, h2, h3, h4, h5, h6, h7, -, -, h8, h9, h10, h11, h12⟩ := h
  simp only [String.toList_append, List.append_cancel_right_eq, List.append_cancel_left_eq] at h9 h10 h11
  refine ⟨⟨agree_of_words h1, agree_of_words h2, count_inj h3, agree_of_words h4, agree_of_words h5,
    count_inj h6, agree_of_words h7, count_inj h8, ?_⟩, h12⟩
  exact Prod.ext (toString_inj h9) (Prod.ext (toString_inj h10) (toString_inj h11))

/-- **C101** Grid parameters that print the same have vectors of the same lengths, whose ends agree to
two digits. -/
theorem C101_params (g h : GridParams K) (p q : ParamsReport K) (hp : g.report = .ok p) (hq : h.report = .ok q)
    (he : p.text = q.text) : Spec.SameParams p q ∧ g.gridShape = h.gridShape := by
  have := (params_of_words p q [] [] (by rw [he])).1
  refine ⟨this, ?_⟩
  have key : ∀ (g : GridParams K) p, g.report = .ok p → p.gridShape = g.gridShape := by
    intro g p hp
    unfold GridParams.report at hp
    cases h1 : rangeOf g.getVectors.2.1 with
    | error e => rw [h1] at hp; cases hp
    | ok a =>
      cases h2 : rangeOf g.getVectors.1 with
      | error e => rw [h1, h2] at hp; cases hp
      | ok b =>
        cases h3 : rangeOf g.getVectors.2.2 with
        | error e => rw [h1, h2, h3] at hp; cases hp
        | ok c => rw [h1, h2, h3] at hp; cases hp; rfl
  rw [← key g p hp, ← key h q hq]
  exact this.2.2.2.2.2.2.2.2

/-! ## Diagnostics -/

theorem words_diagnostics (n : ℕ) : words (diagnosticsText n)
    = words "Grid Diagnostics" ++ (words dashes ++ (words "diagnostics saved: " ++ [(toString n).toList])) := by
  unfold diagnosticsText
  rw [words_joinLines]
  simp only [List.flatMap_cons, List.flatMap_nil]
  rw [words_left _ (by decide), words_word (isWord_nat n), show words "" = [] by decide]
  simp only [List.nil_append, List.append_nil]

/-- **C101** Diagnostics that print the same have as many keys. -/
theorem C101_diagnostics (a b : Diagnostics K) (h : diagnosticsText a.report = diagnosticsText b.report) :
    a.report = b.report := by
  have hw := congrArg words h
  rw [words_diagnostics, words_diagnostics] at hw
  simp only [List.append_cancel_left_eq, List.cons.injEq, and_true] at hw
  exact toString_inj hw

/-! ## Properties and gradients -/

/-- The words of the title of a property. -/
def titleWords (t : PropName × PropUnit) : List (List Char) :=
  words (pretty t.1.str ++ " [" ++ t.2.symbol ++ "]")

/-- All names and units. -/
def allTitles : List (PropName × PropUnit) :=
  [PropName.diskRadius, .inclination, .tilt, .fxMap, .fyMap, .diagnosticMap, .gradient, .gradientFit].flatMap
    fun n => [PropUnit.eclipseDuration, .degree, .none].map fun u => (n, u)

theorem mem_allTitles (t : PropName × PropUnit) : t ∈ allTitles := by
  obtain ⟨n, u⟩ := t
  cases n <;> cases u <;> decide

/-- No title has dashes or the first word of another part in it, and titles tell name and unit. -/
theorem titles : ∀ t ∈ allTitles, (∀ w ∈ titleWords t, w ≠ dashes.toList) ∧
    (∀ w, (titleWords t).head? = some w → w ≠ "Grid".toList ∧ w ≠ "mask".toList ∧ w ≠ "measured".toList) ∧
    titleWords t ≠ [] ∧ (∀ w ∈ titleWords t, w ≠ "@".toList) ∧
    ∀ u ∈ allTitles, titleWords t = titleWords u → t = u := by
  decide +kernel

theorem takeWhile_title (d : List Char) (a l : List (List Char)) (h : ∀ w ∈ a, w ≠ d) :
    (a ++ d :: l).takeWhile (· ≠ d) = a := by
  rw [List.takeWhile_append_of_pos fun w hw => decide_eq_true (h w hw), List.takeWhile_cons_of_neg (by simp)]
  simp

/-- A title is over at a word that is in no title. -/
theorem title_end (d : List Char) (a b l m : List (List Char)) (ha : ∀ w ∈ a, w ≠ d) (hb : ∀ w ∈ b, w ≠ d)
    (h : a ++ d :: l = b ++ d :: m) : a = b ∧ l = m := by
  have hab : a = b := by
    have := congrArg (List.takeWhile (· ≠ d)) h
    rwa [takeWhile_title d a l ha, takeWhile_title d b m hb] at this
  subst hab
  exact ⟨rfl, (List.cons.inj (List.append_cancel_left h)).2⟩

/-- A report whose title is that of a name and a unit. -/
def Spec.Titled (p : PropReport K) (t : PropName × PropUnit) : Prop :=
  p.title = pretty t.1.str ∧ p.unit = t.2.symbol

/-- Reports of properties that are the same to four digits. -/
def Spec.SameProp (a b : PropReport K) : Prop :=
  a.title = b.title ∧ a.unit = b.unit ∧ Spec.Agree 4 a.minimum b.minimum ∧ Spec.Agree 4 a.maximum b.maximum ∧
  Spec.Agree 4 a.mean b.mean ∧ Spec.Agree 4 a.median b.median ∧ Option.Rel (Spec.Agree 4) a.masked b.masked

theorem words_mask (m : Option (XF K)) : (maskLines m).flatMap words
    = match m with
      | none => []
      | some x => "mask".toList :: "[out]:".toList :: [(fixed 4 x ++ "%").toList] := by
  cases m with
  | none => rfl
  | some x =>
    have h : IsWord (fixed 4 x ++ "%") := isWord_append (isWord_fixed _ _) (by decide)
    simp only [maskLines, List.flatMap_cons, List.flatMap_nil]
    rw [String.append_assoc, words_left (a := "mask [out]:  ") _ (by decide), words_pad, words_word h,
      show words "mask [out]:  " = ["mask".toList, "[out]:".toList] by decide, show words "" = [] by decide]
    rfl

theorem percent_inj {d : ℕ} {a b : XF K} (h : (fixed d a ++ "%").toList = (fixed d b ++ "%").toList) :
    Spec.Agree d a b := by
  simp only [String.toList_append, List.append_cancel_right_eq] at h
  exact agree_of_words h

/-- The words of a property without its title. -/
def bodyWords (p : PropReport K) : List (List Char) :=
  words "min value:    " ++ (fixed 4 p.minimum).toList :: (words "max value:    " ++
    (fixed 4 p.maximum).toList :: (words "mean value:   " ++ (fixed 4 p.mean).toList ::
    (words "median value: " ++ (fixed 4 p.median).toList :: (maskLines p.masked).flatMap words)))

theorem words_prop (after : String) (p : PropReport K) : (p.linesWith after).flatMap words
    = words (p.title ++ " [" ++ p.unit ++ "]" ++ after) ++ dashes.toList :: bodyWords p := by
  unfold PropReport.linesWith bodyWords
  simp only [List.flatMap_append, List.flatMap_cons, List.flatMap_nil]
  rw [words_last "min value:    " 13 (isWord_fixed _ _) (by decide),
    words_last "max value:    " 13 (isWord_fixed _ _) (by decide),
    words_last "mean value:   " 13 (isWord_fixed _ _) (by decide),
    words_last "median value: " 13 (isWord_fixed _ _) (by decide),
    show words "" = [] by decide, show words dashes = [dashes.toList] by decide]
  simp only [List.append_assoc, List.cons_append, List.nil_append]

/-- The numbers of a property and where they end, if what follows does not begin like a mask. -/
theorem body_of_words (p q : PropReport K) (l m : List (List Char)) (hl : l.head? ≠ some "mask".toList)
    (hm : m.head? ≠ some "mask".toList) (h : bodyWords p ++ l = bodyWords q ++ m) :
    Spec.Agree 4 p.minimum q.minimum ∧ Spec.Agree 4 p.maximum q.maximum ∧
    Spec.Agree 4 p.mean q.mean ∧ Spec.Agree 4 p.median q.median ∧
    Option.Rel (Spec.Agree 4) p.masked q.masked ∧ l = m := by
  unfold bodyWords at h
  simp only [List.append_assoc, List.cons_append, List.append_cancel_left_eq, List.cons.injEq] at h
  obtain ⟨h1, h2, h3, h4, h5⟩ := h
  refine ⟨agree_of_words h1, agree_of_words h2, agree_of_words h3, agree_of_words h4, ?_⟩
  rw [words_mask, words_mask] at h5
  cases hp : p.masked with
  | none =>
    cases hq : q.masked with
    | none => rw [hp, hq] at h5; exact ⟨.none, h5⟩
    | some y =>
      rw [hp, hq] at h5
      simp only [List.nil_append, List.cons_append] at h5
      exact absurd (by rw [h5]; rfl) hl
  | some x =>
    cases hq : q.masked with
    | none =>
      rw [hp, hq] at h5
      simp only [List.nil_append, List.cons_append] at h5
      exact absurd (by rw [← h5]; rfl) hm
    | some y =>
      rw [hp, hq] at h5
      simp only [List.nil_append, List.cons_append, List.cons.injEq, true_and] at h5
      exact ⟨.some (percent_inj h5.1), h5.2⟩

theorem titled_words {p : PropReport K} {t : PropName × PropUnit} (h : Spec.Titled p t) :
    words (p.title ++ " [" ++ p.unit ++ "]") = titleWords t := by
  rw [h.1, h.2]; rfl

theorem same_title {p q : PropReport K} {t u : PropName × PropUnit} (hp : Spec.Titled p t) (hq : Spec.Titled q u)
    (h : titleWords t = titleWords u) : t = u ∧ p.title = q.title ∧ p.unit = q.unit := by
  have := (titles t (mem_allTitles t)).2.2.2.2 u (mem_allTitles u) h
  subst this
  exact ⟨rfl, by rw [hp.1, hq.1], by rw [hp.2, hq.2]⟩

theorem words_prop_text (p : PropReport K) (t : PropName × PropUnit) (h : Spec.Titled p t) :
    words p.text = titleWords t ++ dashes.toList :: bodyWords p := by
  unfold PropReport.text
  rw [words_joinLines, words_prop, String.append_empty, titled_words h]

theorem prop_of_words (p q : PropReport K) (t u : PropName × PropUnit) (hp : Spec.Titled p t) (hq : Spec.Titled q u)
    (l m : List (List Char)) (hl : l.head? ≠ some "mask".toList) (hm : m.head? ≠ some "mask".toList)
    (h : words p.text ++ l = words q.text ++ m) : Spec.SameProp p q ∧ t = u ∧ l = m := by
  rw [words_prop_text p t hp, words_prop_text q u hq, List.append_assoc, List.append_assoc, List.cons_append,
    List.cons_append] at h
  obtain ⟨h1, h2⟩ := title_end _ _ _ _ _ (titles t (mem_allTitles t)).1 (titles u (mem_allTitles u)).1 h
  obtain ⟨a, b, c, d, e, f⟩ := body_of_words p q l m hl hm h2
  obtain ⟨x, y, z⟩ := same_title hp hq h1
  exact ⟨⟨y, z, a, b, c, d, e⟩, x, f⟩

theorem report_titled (p : GProp K) (r : PropReport K) (h : p.report = .ok r) : Spec.Titled r (p.name, p.unit) := by
  unfold GProp.report at h
  cases h1 : shown p.vmin with
  | error e => rw [h1] at h; cases h
  | ok a =>
    cases h2 : shown p.vmax with
    | error e => rw [h1, h2] at h; cases h
    | ok b => rw [h1, h2] at h; cases h; exact ⟨rfl, rfl⟩

/-- **C101** Properties that print the same have the same name and unit, are both masked or both not, and
agree in what is printed of them to four digits. -/
theorem C101_property (p q : GProp K) (r s : PropReport K) (hp : p.report = .ok r) (hq : q.report = .ok s)
    (h : r.text = s.text) : p.name = q.name ∧ p.unit = q.unit ∧ (p.mask.isSome = q.mask.isSome) ∧
    Spec.SameProp r s := by
  obtain ⟨h1, h2, -⟩ := prop_of_words r s _ _ (report_titled p r hp) (report_titled q s hq) [] []
    (by simp) (by simp) (by rw [h])
  have key : ∀ (p : GProp K) r, p.report = .ok r → r.masked.isSome = p.mask.isSome := by
    intro p r h
    unfold GProp.report at h
    cases h1 : shown p.vmin with
    | error e => rw [h1] at h; cases h
    | ok a =>
      cases h2 : shown p.vmax with
      | error e => rw [h1, h2] at h; cases h
      | ok b => rw [h1, h2] at h; cases h; simp
  refine ⟨congrArg Prod.fst h2, congrArg Prod.snd h2, ?_, h1⟩
  rw [← key p r hp, ← key q s hq]
  obtain ⟨-, -, -, -, -, -, hm⟩ := h1
  generalize r.masked = x at hm ⊢
  generalize s.masked = y at hm ⊢
  cases hm <;> rfl

/-- Measured values that are the same to four digits. -/
def Spec.SameMeasured (a b : Measured K) : Prop :=
  Spec.Agree 4 a.gradient b.gradient ∧ Spec.Agree 4 a.error b.error ∧ Spec.Agree 4 a.orbital b.orbital ∧
  Spec.Agree 4 a.transmission b.transmission

/-- Reports of gradients that are the same to four digits. -/
def Spec.SameGrad (a b : GradReport K) : Prop :=
  Spec.SameProp a.prop b.prop ∧ Spec.Agree 4 a.position b.position ∧
  Option.Rel Spec.SameMeasured a.measured b.measured

theorem words_measured (m : Option (Measured K)) : (measuredLines m).flatMap words
    = match m with
      | none => []
      | some m => "measured".toList :: "gradient:".toList :: (fixed 4 m.gradient).toList ::
        (words "measured error:      " ++ (fixed 4 m.error).toList :: (words "orbital scale:    " ++
        (fixed 4 m.orbital).toList :: (words "transmission change: " ++ [(fixed 4 m.transmission).toList]))) := by
  cases m with
  | none => rfl
  | some m =>
    simp only [measuredLines, List.flatMap_cons, List.flatMap_nil]
    rw [words_last "measured gradient:   " 6 (isWord_fixed _ _) (by decide),
      words_last "measured error:      " 6 (isWord_fixed _ _) (by decide),
      words_last "orbital scale:    " 9 (isWord_fixed _ _) (by decide),
      words_last "transmission change: " 6 (isWord_fixed _ _) (by decide),
      show words "measured gradient:   " = ["measured".toList, "gradient:".toList] by decide]
    simp only [List.append_assoc, List.cons_append, List.nil_append, List.append_nil]

theorem words_grad (g : GradReport K) (t : PropName × PropUnit) (h : Spec.Titled g.prop t) : words g.text
    = titleWords t ++ "@".toList :: ("pos".toList :: "=".toList :: (fixed 4 g.position).toList ::
      dashes.toList :: (bodyWords g.prop ++ (measuredLines g.measured).flatMap words)) := by
  unfold GradReport.text GradReport.lines
  rw [words_joinLines, List.flatMap_append, words_prop, words_right _ (startsSep_append _ (by decide)),
    titled_words h, words_last " @ pos = " 7 (isWord_fixed _ _) (by decide),
    show words " @ pos = " = ["@".toList, "pos".toList, "=".toList] by decide]
  simp only [List.append_assoc, List.cons_append, List.nil_append]

theorem grad_of_words (p q : GradReport K) (t u : PropName × PropUnit) (hp : Spec.Titled p.prop t)
    (hq : Spec.Titled q.prop u) (l m : List (List Char))
    (hl : l.head? ≠ some "mask".toList ∧ l.head? ≠ some "measured".toList)
    (hm : m.head? ≠ some "mask".toList ∧ m.head? ≠ some "measured".toList)
    (h : words p.text ++ l = words q.text ++ m) : Spec.SameGrad p q ∧ t = u ∧ l = m := by
  rw [words_grad p t hp, words_grad q u hq] at h
  simp only [List.append_assoc, List.cons_append] at h
  obtain ⟨h1, h2⟩ := title_end _ _ _ _ _ (titles t (mem_allTitles t)).2.2.2.1
    (titles u (mem_allTitles u)).2.2.2.1 h
  simp only [List.cons.injEq, true_and] at h2
  have head : ∀ (o : Option (Measured K)) (k : List (List Char)), k.head? ≠ some "mask".toList →
      ((measuredLines o).flatMap words ++ k).head? ≠ some "mask".toList := by
    intro o k hk
    rw [words_measured]
    cases o with
    | none => exact hk
    | some m => simp only [List.cons_append, List.head?_cons]; decide
  obtain ⟨a, b, c, d, e, f⟩ := body_of_words p.prop q.prop _ _ (head _ l hl.1) (head _ m hm.1) h2.2
  obtain ⟨x, y, z⟩ := same_title hp hq h1
  suffices hs : Option.Rel Spec.SameMeasured p.measured q.measured ∧ l = m from
    ⟨⟨⟨y, z, a, b, c, d, e⟩, agree_of_words h2.1, hs.1⟩, x, hs.2⟩
  rw [words_measured, words_measured] at f
  cases hpm : p.measured with
  | none =>
    cases hqm : q.measured with
    | none => rw [hpm, hqm] at f; exact ⟨.none, f⟩
    | some v =>
      rw [hpm, hqm] at f
      simp only [List.nil_append, List.cons_append] at f
      exact absurd (by rw [f]; rfl) hl.2
  | some w =>
    cases hqm : q.measured with
    | none =>
      rw [hpm, hqm] at f
      simp only [List.nil_append, List.cons_append] at f
      exact absurd (by rw [← f]; rfl) hm.2
    | some v =>
      rw [hpm, hqm] at f
      simp only [List.nil_append, List.cons_append, List.append_assoc, List.cons.injEq, true_and,
        List.append_cancel_left_eq] at f
      obtain ⟨f1, f2, f3, f4, f5⟩ := f
      exact ⟨.some ⟨agree_of_words f1, agree_of_words f2, agree_of_words f3, agree_of_words f4⟩, f5⟩

theorem grad_titled (g : GGrad K) (r : GradReport K) (h : g.report = .ok r) :
    Spec.Titled r.prop (g.prop.name, g.prop.unit) := by
  unfold GGrad.report at h
  cases h1 : g.prop.report with
  | error e => rw [h1] at h; cases h
  | ok p =>
    cases h2 : g.measuredReport with
    | error e => rw [h1, h2] at h; cases h
    | ok m => rw [h1, h2] at h; cases h; exact report_titled _ _ h1

/-- **C101** Gradients that print the same agree in their position, in what is printed of their data, and
in what was measured, to four digits. -/
theorem C101_gradient (g h : GGrad K) (r s : GradReport K) (hg : g.report = .ok r) (hh : h.report = .ok s)
    (he : r.text = s.text) : Spec.SameGrad r s ∧ Spec.Agree 4 g.position.num h.position.num := by
  have hs := (grad_of_words r s _ _ (grad_titled g r hg) (grad_titled h s hh) [] [] (by simp) (by simp)
    (by rw [he])).1
  have key : ∀ (g : GGrad K) r, g.report = .ok r → r.position = g.position.num := by
    intro g r h
    unfold GGrad.report at h
    cases h1 : g.prop.report with
    | error e => rw [h1] at h; cases h
    | ok p =>
      cases h2 : g.measuredReport with
      | error e => rw [h1, h2] at h; cases h
      | ok m => rw [h1, h2] at h; cases h; rfl
  refine ⟨hs, ?_⟩
  rw [← key g r hg, ← key h s hh]
  exact hs.2.1

end
end Beyonce
