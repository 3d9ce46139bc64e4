import Verif.Props.Report

/-!
# Property C130: `set_contrast_parameters`
-/

set_option linter.unusedSectionVars false

namespace Beyonce
open Spec

section
variable {K : Type} [Field K] [LinearOrder K] [IsStrictOrderedRing K]

/-- The lower limit asked for: the number given, or without one the least number of the data. -/
def Spec.LowLimit (p : GProp K) (v : PyVal K) (x : XF K) : Prop :=
  (v = .none ∧ x ∈ p.data.data ∧ x ≠ .nan ∧ ∀ y ∈ p.data.data, y ≠ .nan → LessEq x y) ∨ IsNumber false v x

/-- The upper limit asked for. -/
def Spec.HighLimit (p : GProp K) (v : PyVal K) (x : XF K) : Prop :=
  (v = .none ∧ x ∈ p.data.data ∧ x ≠ .nan ∧ ∀ y ∈ p.data.data, y ≠ .nan → LessEq y x) ∨ IsNumber false v x

/-- The colour map asked for. -/
def Spec.MapName (v : PyVal K) (s : String) : Prop := (v = .none ∧ s = "viridis") ∨ v = .str s

/-- The number of colours asked for. -/
def Spec.ColorCount (v : PyVal K) (n : ℤ) : Prop := (v = .none ∧ n = 11) ∨ (IsInteger v n ∧ 2 ≤ n)

/-- A field that takes the value asked for when it may and there is one, and else stays. -/
def Spec.Takes {α : Type} (may : Prop) (asked : α → Prop) (old new : α) : Prop :=
  (may ∧ asked new) ∨ (¬ (may ∧ ∃ x, asked x) ∧ new = old)

theorem number_any (v : PyVal K) :
    (number v = .ok v ∧ IsNumber false v v.num) ∨
      ((∃ e, number v = .error e) ∧ ∀ x, ¬ IsNumber false v x) := by
  have hni : ∀ x : XF K, ¬ Less x .ninf := by intro x; rw [less_iff]; cases x <;> simp [XF.lt]
  have hpi : ∀ x : XF K, ¬ Less .pinf x := by intro x; rw [less_iff]; cases x <;> simp [XF.lt]
  rcases number_iff' v (.float .ninf) (.float .pinf) .ninf .pinf (Or.inr ⟨rfl, .float _⟩)
    (Or.inr ⟨rfl, .float _⟩) (hpi _) with ⟨h, hv, -⟩ | ⟨e, h, hv⟩
  · exact Or.inl ⟨h, hv⟩
  · refine Or.inr ⟨⟨e, h⟩, fun x hx => hv ⟨?_, hni _, hpi _⟩⟩
    obtain rfl := isNumber_num hx
    exact hx

theorem lowLimit_cases (p : GProp K) (hd : ¬ AllNan p.data.data) (a : PyVal K) :
    (∃ w, number (limitOr a (nanmin p.data.data)) = .ok w ∧ LowLimit p a w.num) ∨
      ((∃ e, number (limitOr a (nanmin p.data.data)) = .error e) ∧ ¬ ∃ x, LowLimit p a x) := by
  by_cases ha : a = .none
  · subst ha
    cases hm : nanmin p.data.data with
    | none => exact absurd ((nanmin_spec _).1.1 hm) hd
    | some y =>
      obtain ⟨h1, h2, h3⟩ := (nanmin_spec _).2 y hm
      refine Or.inl ⟨.npFloat .w64 y, ?_, Or.inl ⟨rfl, h1, h2, h3⟩⟩
      rcases number_any (.npFloat .w64 y : PyVal K) with h | h
      · exact h.1
      · exact absurd (Or.inr ⟨rfl, .npFloat _ _⟩) (h.2 _)
  · have hl : limitOr a (nanmin p.data.data) = a := by cases a <;> first | rfl | exact absurd rfl ha
    rw [hl]
    rcases number_any a with ⟨h, hv⟩ | ⟨h, hv⟩
    · exact Or.inl ⟨a, h, Or.inr hv⟩
    · refine Or.inr ⟨h, ?_⟩
      rintro ⟨x, h | h⟩
      · exact ha h.1
      · exact hv _ h

theorem highLimit_cases (p : GProp K) (hd : ¬ AllNan p.data.data) (a : PyVal K) :
    (∃ w, number (limitOr a (nanmax p.data.data)) = .ok w ∧ HighLimit p a w.num) ∨
      ((∃ e, number (limitOr a (nanmax p.data.data)) = .error e) ∧ ¬ ∃ x, HighLimit p a x) := by
  by_cases ha : a = .none
  · subst ha
    cases hm : nanmax p.data.data with
    | none => exact absurd ((nanmax_spec _).1.1 hm) hd
    | some y =>
      obtain ⟨h1, h2, h3⟩ := (nanmax_spec _).2 y hm
      refine Or.inl ⟨.npFloat .w64 y, ?_, Or.inl ⟨rfl, h1, h2, h3⟩⟩
      rcases number_any (.npFloat .w64 y : PyVal K) with h | h
      · exact h.1
      · exact absurd (Or.inr ⟨rfl, .npFloat _ _⟩) (h.2 _)
  · have hl : limitOr a (nanmax p.data.data) = a := by cases a <;> first | rfl | exact absurd rfl ha
    rw [hl]
    rcases number_any a with ⟨h, hv⟩ | ⟨h, hv⟩
    · exact Or.inl ⟨a, h, Or.inr hv⟩
    · refine Or.inr ⟨h, ?_⟩
      rintro ⟨x, h | h⟩
      · exact ha h.1
      · exact hv _ h

theorem mapName_cases (c : PyVal K) :
    (∃ s, string (if c = .none then .str "viridis" else c) = .ok s ∧ MapName c s) ∨
      ((∃ e, string (if c = .none then .str "viridis" else c) = .error e) ∧ ¬ ∃ s, MapName c s) := by
  unfold MapName string classObject
  cases c <;> simp [isinstance, bind, Except.bind]

theorem number_two (v w : PyVal K) : number v (.bool true) (.int 2) = .ok w ↔
    w = v ∧ ∃ m, IsInteger v m ∧ 2 ≤ m := by
  rw [number_lower true v w (.int 2) (.fin 2) (Or.inl ⟨2, .int 2, by simp⟩)]
  constructor
  · rintro ⟨h, x, (⟨n, hn, rfl⟩ | ⟨h', -⟩), hx⟩
    · rw [less_iff] at hx
      simp only [XF.lt, decide_eq_true_eq, not_lt] at hx
      exact ⟨h, n, hn, by exact_mod_cast hx⟩
    · exact absurd h' (by simp)
  · rintro ⟨h, n, hn, h2⟩
    refine ⟨h, .fin n, Or.inl ⟨n, hn, rfl⟩, ?_⟩
    rw [less_iff]
    simp only [XF.lt, decide_eq_true_eq, not_lt]
    exact_mod_cast h2

theorem colorCount_cases (n : PyVal K) :
    (∃ w, number (if n = .none then .int 11 else n) (.bool true) (.int 2) = .ok w ∧
      ColorCount n w.toInt) ∨
    ((∃ e, number (if n = .none then .int 11 else n) (.bool true) (.int 2) = .error e) ∧
      ¬ ∃ m, ColorCount n m) := by
  by_cases hn : n = .none
  · subst hn
    rw [if_pos rfl]
    exact Or.inl ⟨.int 11, (number_two _ _).2 ⟨rfl, 11, .int 11, by norm_num⟩, Or.inl ⟨rfl, rfl⟩⟩
  · rw [if_neg hn]
    by_cases h : ∃ m, IsInteger n m ∧ 2 ≤ m
    · refine Or.inl ⟨n, (number_two _ _).2 ⟨rfl, h⟩, Or.inr ?_⟩
      obtain ⟨m, hm, h2⟩ := h
      rw [isInteger_toInt hm]
      exact ⟨hm, h2⟩
    · refine Or.inr ⟨?_, ?_⟩
      · cases hv : number n (.bool true) (.int 2) with
        | error e => exact ⟨e, rfl⟩
        | ok w => exact absurd ((number_two _ _).1 hv).2 h
      · rintro ⟨m, hm | hm⟩
        · exact hn hm.1
        · exact h ⟨m, hm⟩

/-- Whether the limits are accepted: without a number in the data nothing is asked of them. -/
def Spec.LimitsFine (p : GProp K) (a b : PyVal K) : Prop :=
  AllNan p.data.data ∨ ((∃ x, LowLimit p a x) ∧ ∃ y, HighLimit p b y)

theorem setLimits_exact (a b : PyVal K) (p : GProp K) :
    ∃ u v, (GProp.setLimits a b p).2 = { p with vmin := u, vmax := v } ∧
      (AllNan p.data.data → u = none ∧ v = none) ∧
      (¬ AllNan p.data.data →
        Takes True (fun u => ∃ x, u = some x ∧ LowLimit p a x) p.vmin u ∧
        Takes (∃ x, LowLimit p a x) (fun v => ∃ y, v = some y ∧ HighLimit p b y) p.vmax v) ∧
      (((GProp.setLimits a b p).1 = .ok () ∧ LimitsFine p a b) ∨
        ((∃ e, (GProp.setLimits a b p).1 = .error e) ∧ ¬ LimitsFine p a b)) := by
  unfold GProp.setLimits
  rw [Meth.get_bind]
  by_cases hd : AllNan p.data.data
  · rw [if_pos ((all_isNan _).2 hd)]
    exact ⟨none, none, rfl, fun _ => ⟨rfl, rfl⟩, fun h => absurd hd h, Or.inl ⟨rfl, Or.inl hd⟩⟩
  · rw [if_neg (fun h => hd ((all_isNan _).1 h))]
    rcases lowLimit_cases p hd a with ⟨w, hw, hl⟩ | ⟨⟨e, he⟩, hl⟩
    · rcases highLimit_cases p hd b with ⟨w', hw', hh⟩ | ⟨⟨e, he⟩, hh⟩
      · rw [hw, hw']
        exact ⟨some w.num, some w'.num, rfl, fun h => absurd h hd, fun _ =>
          ⟨Or.inl ⟨trivial, _, rfl, hl⟩, Or.inl ⟨⟨_, hl⟩, _, rfl, hh⟩⟩,
          Or.inl ⟨rfl, Or.inr ⟨⟨_, hl⟩, _, hh⟩⟩⟩
      · rw [hw, he]
        refine ⟨some w.num, p.vmax, rfl, fun h => absurd h hd, fun _ =>
          ⟨Or.inl ⟨trivial, _, rfl, hl⟩, Or.inr ⟨?_, rfl⟩⟩, Or.inr ⟨⟨e, rfl⟩, ?_⟩⟩
        · rintro ⟨-, -, y, -, hy⟩; exact hh ⟨y, hy⟩
        · rintro (h | h)
          · exact hd h
          · exact hh h.2
    · rw [he]
      refine ⟨p.vmin, p.vmax, rfl, fun h => absurd h hd, fun _ =>
        ⟨Or.inr ⟨?_, rfl⟩, Or.inr ⟨fun h => hl h.1, rfl⟩⟩, Or.inr ⟨⟨e, rfl⟩, ?_⟩⟩
      · rintro ⟨-, -, y, -, hy⟩; exact hl ⟨y, hy⟩
      · rintro (h | h)
        · exact hd h
        · exact hl h.1

/-- **C130** Exactly what a call of `set_contrast_parameters` leaves behind, whatever it is given.
The four fields are stored in their order up to the first argument that is rejected; the call
succeeds exactly when none is. -/
theorem C130_exact (a b c n : PyVal K) (p : GProp K) :
    ∃ u v s m, (GProp.setContrast a b c n p).2 =
        { p with vmin := u, vmax := v, colorMap := s, numColors := m } ∧
      (AllNan p.data.data → u = none ∧ v = none) ∧
      (¬ AllNan p.data.data →
        Takes True (fun u => ∃ x, u = some x ∧ LowLimit p a x) p.vmin u ∧
        Takes (∃ x, LowLimit p a x) (fun v => ∃ y, v = some y ∧ HighLimit p b y) p.vmax v) ∧
      Takes (LimitsFine p a b) (MapName c) p.colorMap s ∧
      Takes (LimitsFine p a b ∧ ∃ s, MapName c s) (ColorCount n) p.numColors m ∧
      ((GProp.setContrast a b c n p).1 = .ok () ↔
        LimitsFine p a b ∧ (∃ s, MapName c s) ∧ ∃ m, ColorCount n m) := by
  obtain ⟨u, v, h1, h2, h3, h4⟩ := setLimits_exact a b p
  unfold GProp.setContrast
  rw [Meth.bind_apply]
  generalize GProp.setLimits a b p = r at h1 h4
  obtain ⟨r1, r2⟩ := r
  simp only at h1 h4
  subst h1
  rcases h4 with ⟨rfl, hf⟩ | ⟨⟨e, rfl⟩, hf⟩
  · simp only
    unfold GProp.setColors
    rcases mapName_cases c with ⟨s, hs, hm⟩ | ⟨⟨e, he⟩, hm⟩
    · rw [hs]
      rcases colorCount_cases n with ⟨w, hw, hc⟩ | ⟨⟨e, he⟩, hc⟩
      · rw [hw]
        exact ⟨u, v, s, w.toInt, rfl, h2, h3, Or.inl ⟨hf, hm⟩, Or.inl ⟨⟨hf, s, hm⟩, hc⟩,
          iff_of_true rfl ⟨hf, ⟨s, hm⟩, _, hc⟩⟩
      · rw [he]
        refine ⟨u, v, s, p.numColors, rfl, h2, h3, Or.inl ⟨hf, hm⟩, Or.inr ⟨fun h => hc h.2, rfl⟩,
          iff_of_false ?_ fun h => hc h.2.2⟩
        intro h; cases h
    · rw [he]
      refine ⟨u, v, p.colorMap, p.numColors, rfl, h2, h3, Or.inr ⟨fun h => hm h.2, rfl⟩,
        Or.inr ⟨fun h => hm h.1.2, rfl⟩, iff_of_false ?_ fun h => hm h.2.1⟩
      intro h; cases h
  · refine ⟨u, v, p.colorMap, p.numColors, rfl, h2, h3, Or.inr ⟨fun h => hf h.1, rfl⟩,
      Or.inr ⟨fun h => hf h.1.1, rfl⟩, iff_of_false ?_ fun h => hf h.1⟩
    intro h; cases h

theorem lessEq_antisymm' {x y : XF K} (h : LessEq x y) (h' : LessEq y x) : x = y := by
  rw [lessEq_iff] at h h'
  cases x <;> cases y <;> simp_all [XF.le]
  exact le_antisymm h h'

/-- What is asked for is one value: `C130_exact` leaves no choice. -/
theorem C130_determined (p : GProp K) (v : PyVal K) :
    (∀ x y, LowLimit p v x → LowLimit p v y → x = y) ∧
    (∀ x y, HighLimit p v x → HighLimit p v y → x = y) ∧
    (∀ s t, MapName v s → MapName v t → s = t) ∧
    (∀ m k, ColorCount v m → ColorCount v k → m = k) := by
  have hnone : ∀ x, ¬ IsNumber false (.none : PyVal K) x := by
    rintro x (⟨n, h, -⟩ | ⟨-, h⟩) <;> cases h
  refine ⟨?_, ?_, ?_, ?_⟩
  · rintro x y (⟨rfl, h1, h2, h3⟩ | h) (⟨h', k1, k2, k3⟩ | h')
    · exact lessEq_antisymm' (h3 y k1 k2) (k3 x h1 h2)
    · exact absurd h' (hnone _)
    · subst h'; exact absurd h (hnone _)
    · exact isNumber_unique h h'
  · rintro x y (⟨rfl, h1, h2, h3⟩ | h) (⟨h', k1, k2, k3⟩ | h')
    · exact lessEq_antisymm' (k3 x h1 h2) (h3 y k1 k2)
    · exact absurd h' (hnone _)
    · subst h'; exact absurd h (hnone _)
    · exact isNumber_unique h h'
  · rintro s t (⟨rfl, rfl⟩ | rfl) (⟨h, rfl⟩ | h)
    · rfl
    · cases h
    · cases h
    · injection h
  · rintro m k (⟨rfl, rfl⟩ | ⟨h, -⟩) (⟨h', rfl⟩ | ⟨h', -⟩)
    · rfl
    · cases h'
    · subst h'; cases h
    · rw [← isInteger_toInt h, ← isInteger_toInt h']

/-- A number a limit is chosen from: the argument, or without one any number of the data. -/
def Spec.Choice (p : GProp K) (v : PyVal K) (x : XF K) : Prop :=
  (v = .none ∧ x ∈ p.data.data) ∨ IsNumber false v x

/-- **C130** When the limits that a call stores are in order: exactly when some number the lower
one is chosen from is not above some number the upper one is chosen from.  With both limits given
nothing is compared. -/
theorem C130_ordered_iff (a b c n : PyVal K) (p : GProp K) (hd : ¬ AllNan p.data.data)
    (hok : (GProp.setContrast a b c n p).1 = .ok ()) :
    ∃ lo hi, (GProp.setContrast a b c n p).2.vmin = some lo ∧
      (GProp.setContrast a b c n p).2.vmax = some hi ∧
      (LessEq lo hi ↔ ∃ x y, Choice p a x ∧ Choice p b y ∧ LessEq x y) := by
  obtain ⟨u, v, s, m, h1, -, h2, -, -, h3⟩ := C130_exact a b c n p
  obtain ⟨hf, -⟩ := h3.1 hok
  obtain ⟨h4, h5⟩ := h2 hd
  rw [h1]
  obtain ⟨⟨x, hx⟩, y, hy⟩ := hf.resolve_left hd
  have hu : ∃ x, u = some x ∧ LowLimit p a x := by
    rcases h4 with h | ⟨h, -⟩
    · exact h.2
    · exact absurd ⟨trivial, _, x, rfl, hx⟩ h
  have hv : ∃ y, v = some y ∧ HighLimit p b y := by
    rcases h5 with h | ⟨h, -⟩
    · exact h.2
    · exact absurd ⟨⟨x, hx⟩, _, y, rfl, hy⟩ h
  obtain ⟨lo, rfl, hlo⟩ := hu
  obtain ⟨hi, rfl, hhi⟩ := hv
  refine ⟨lo, hi, rfl, rfl, ?_, ?_⟩
  · intro h
    refine ⟨lo, hi, ?_, ?_, h⟩
    · rcases hlo with h | h
      · exact Or.inl ⟨h.1, h.2.1⟩
      · exact Or.inr h
    · rcases hhi with h | h
      · exact Or.inl ⟨h.1, h.2.1⟩
      · exact Or.inr h
  · rintro ⟨x, y, hcx, hcy, hxy⟩
    have hx0 : x ≠ .nan := by rintro rfl; rw [lessEq_iff] at hxy; simp [XF.le] at hxy
    have hy0 : y ≠ .nan := by rintro rfl; rw [lessEq_iff] at hxy; cases x <;> simp [XF.le] at hxy
    have hnone : ∀ x, ¬ IsNumber false (.none : PyVal K) x := by
      rintro x (⟨n, h, -⟩ | ⟨-, h⟩) <;> cases h
    have e1 : LessEq lo x := by
      rcases hlo with ⟨rfl, -, -, h⟩ | h
      · exact h x (hcx.resolve_right (hnone _)).2 hx0
      · rcases hcx with ⟨rfl, -⟩ | h'
        · exact absurd h (hnone _)
        · rw [isNumber_unique h h', lessEq_iff]; exact XF.le_refl' _ hx0
    have e2 : LessEq y hi := by
      rcases hhi with ⟨rfl, -, -, h⟩ | h
      · exact h y (hcy.resolve_right (hnone _)).2 hy0
      · rcases hcy with ⟨rfl, -⟩ | h'
        · exact absurd h (hnone _)
        · rw [isNumber_unique h h', lessEq_iff]; exact XF.le_refl' _ hy0
    rw [lessEq_iff] at *
    exact XF.le_trans' _ _ _ (XF.le_trans' _ _ _ e1 hxy) e2

/-- **C130** (the part that holds) With neither limit given the stored limits are in order.  Missing
from the full claim: limits that are given, which `C130_ordered_iff` describes, and rejected
calls, which `C130_exact` describes. -/
theorem C130_default_partial (c n : PyVal K) (p : GProp K) (hd : ¬ AllNan p.data.data)
    (hok : (GProp.setContrast .none .none c n p).1 = .ok ()) :
    ∃ lo hi, (GProp.setContrast .none .none c n p).2.vmin = some lo ∧
      (GProp.setContrast .none .none c n p).2.vmax = some hi ∧ LessEq lo hi := by
  obtain ⟨lo, hi, h1, h2, h3⟩ := C130_ordered_iff .none .none c n p hd hok
  refine ⟨lo, hi, h1, h2, h3.2 ?_⟩
  unfold AllNan at hd
  push Not at hd
  obtain ⟨x, hx, hn⟩ := hd
  refine ⟨x, x, Or.inl ⟨rfl, hx⟩, Or.inl ⟨rfl, hx⟩, ?_⟩
  rw [lessEq_iff]
  exact XF.le_refl' _ hn

end

/-- **C130** is false of the code, in three ways.  Limits given in the wrong order are stored; a
call that raises on its second argument has stored the first, which here leaves the lower limit
above the upper one; and with no number in the data any limits are accepted, strings included. -/
theorem C130_false :
    ((GProp.setContrast (K := ℚ) (.int 10) (.int (-3)) .none .none cube123).1 = .ok () ∧
      (GProp.setContrast (K := ℚ) (.int 10) (.int (-3)) .none .none cube123).2.vmin = some (.fin 10) ∧
      (GProp.setContrast (K := ℚ) (.int 10) (.int (-3)) .none .none cube123).2.vmax =
        some (.fin (-3))) ∧
    ((GProp.setContrast (K := ℚ) (.int 10) (.str "a") .none .none cube123).1 = .error .typeError ∧
      cube123.vmin = some (.fin 1) ∧ cube123.vmax = some (.fin 6) ∧
      (GProp.setContrast (K := ℚ) (.int 10) (.str "a") .none .none cube123).2.vmin =
        some (.fin 10) ∧
      (GProp.setContrast (K := ℚ) (.int 10) (.str "a") .none .none cube123).2.vmax =
        some (.fin 6)) ∧
    (GProp.setContrast (K := ℚ) (.str "a") (.str "b") .none .none
      { cube123 with data := ⟨[1], [.nan]⟩ }).1 = .ok () := by
  decide +kernel

/-- The hypotheses are met: a lower limit inside the data is in order with the default upper one,
one above them is not. -/
example : ¬ AllNan cube123.data.data ∧
    (GProp.setContrast (K := ℚ) (.int 2) .none .none (.int 2) cube123).1 = .ok () ∧
    (GProp.setContrast (K := ℚ) (.int 2) .none .none (.int 2) cube123).2.vmax = some (.fin 6) ∧
    (GProp.setContrast (K := ℚ) (.int 20) .none .none .none cube123).1 = .ok () ∧
    (GProp.setContrast (K := ℚ) (.int 20) .none .none .none cube123).2.vmax = some (.fin 6) := by
  refine ⟨fun h => ?_, by decide +kernel, by decide +kernel, by decide +kernel, by decide +kernel⟩
  exact absurd (h (.fin 1) (by decide +kernel)) (by decide)

end Beyonce
