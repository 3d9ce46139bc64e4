import Verif.GridDiagnostics
import Verif.Props.GridFiles

/-!
# Properties C27 – C29: `GridDiagnostics`
-/

set_option linter.unusedSectionVars false

namespace Beyonce
open Spec
variable {K : Type} [Field K] [LinearOrder K]

/-- A value that stands for the index `n`. -/
def Spec.IndexIn (v : PyVal K) (size : ℤ) : Prop := ∃ n : ℤ, IsInteger v n ∧ 0 ≤ n ∧ n < size

/-- The two values name the same index: integers (of whatever width) of the same value, or the same
Boolean.  (Boolean and integer are not interchangeable here, see `C27_bool_is_not_its_integer`.) -/
def Spec.SameIndex (v w : PyVal K) : Prop :=
  (∃ n, IsInteger v n ∧ IsInteger w n) ∧ ((∃ b, v = .bool b) ↔ ∃ b, w = .bool b)

/-- Arguments `save_diagnostic` should accept. -/
structure Spec.GoodVectors (fy radius : PyVal K) (a b : NpArr K) : Prop where
  fy : fy = .arr a
  radius : radius = .arr b
  type_fy : a.dtype = "float64"
  type_radius : b.dtype = "float64"
  dim : a.shape.length = 1
  same : a.shape = b.shape

variable [IsStrictOrderedRing K]

theorem number_between (v w : PyVal K) (u : ℤ) :
    number v (.bool true) (.int 0) (.int u) = .ok w ↔
      w = v ∧ ∃ n : ℤ, IsInteger v n ∧ 0 ≤ n ∧ n ≤ u := by
  rw [show number v (.bool true) (.int 0) (.int u) =
    number v (.bool true) (.int 0) (.int u) (.bool false) from rfl, C01_number_ok_iff]
  have h0 : IsNumber false (.int 0 : PyVal K) (.fin 0) := Or.inl ⟨0, .int 0, by simp⟩
  have hu : IsNumber false (.int u : PyVal K) (.fin u) := Or.inl ⟨u, .int u, rfl⟩
  constructor
  · rintro ⟨h, x, l, h', (⟨n, hn, rfl⟩ | ⟨hf, -⟩), hl, hh, h1, h2⟩
    · obtain rfl := isNumber_unique hl h0
      obtain rfl := isNumber_unique hh hu
      simp only [Violates, less_iff, XF.lt_fin, decide_eq_true_eq] at h2
      simp only [Bool.false_eq_true, if_false, not_or, not_lt] at h2
      exact ⟨h, n, hn, by exact_mod_cast h2.1, by exact_mod_cast h2.2⟩
    · cases hf
  · rintro ⟨h, n, hn, h1, h2⟩
    refine ⟨h, .fin n, .fin 0, .fin u, Or.inl ⟨n, hn, rfl⟩, h0, hu, ?_, ?_⟩
    · rw [less_iff]
      simp only [XF.lt_fin, decide_eq_true_eq, not_lt]
      exact_mod_cast h1.trans h2
    · simp only [Violates, Bool.false_eq_true, if_false, less_iff, XF.lt_fin, decide_eq_true_eq,
        not_or, not_lt]
      exact ⟨by exact_mod_cast h1, by exact_mod_cast h2⟩

theorem isInteger_unique {v : PyVal K} {n m : ℤ} (h : IsInteger v n) (h' : IsInteger v m) : n = m := by
  cases h <;> cases h' <;> rfl

theorem isInteger_toInt {v : PyVal K} {n : ℤ} (h : IsInteger v n) : v.toInt = n := by
  cases h <;> simp [PyVal.toInt]

theorem generateKey_ok (d : Diagnostics K) (y x : PyVal K) (k : Key) :
    d.generateKey y x = .ok k ↔ IndexIn y (d.upper d.maxY + 1) ∧ IndexIn x (d.upper d.maxX + 1) ∧
      k = (d.part y d.maxY, d.part x d.maxX) := by
  unfold Diagnostics.generateKey
  constructor
  · intro h
    cases h1 : number y (.bool true) (.int 0) (.int (d.upper d.maxY)) with
    | error e => rw [h1] at h; cases h
    | ok w1 =>
    cases h2 : number x (.bool true) (.int 0) (.int (d.upper d.maxX)) with
    | error e => rw [h1, h2] at h; cases h
    | ok w2 =>
    obtain ⟨rfl, n, hn, a1, a2⟩ := (number_between _ _ _).1 h1
    obtain ⟨rfl, m, hm, b1, b2⟩ := (number_between _ _ _).1 h2
    rw [h1, h2] at h
    cases h
    exact ⟨⟨n, hn, a1, by omega⟩, ⟨m, hm, b1, by omega⟩, rfl⟩
  · rintro ⟨⟨n, hn, a1, a2⟩, ⟨m, hm, b1, b2⟩, rfl⟩
    rw [(number_between y y _).2 ⟨rfl, n, hn, a1, by omega⟩,
      (number_between x x _).2 ⟨rfl, m, hm, b1, by omega⟩]
    rfl

theorem keyPart_eq {v w : PyVal K} {n m : ℤ} (hv : IsInteger v n) (hw : IsInteger w m) :
    v.keyPart = w.keyPart ↔ SameIndex v w := by
  constructor
  · intro h
    cases hv <;> cases hw <;> simp_all [PyVal.keyPart, PyVal.toInt, SameIndex]
    all_goals first | exact ⟨_, .int _⟩ | exact ⟨_, by constructor⟩ | exact ⟨_, by constructor, by constructor⟩
  · rintro ⟨⟨k, h1, h2⟩, h3⟩
    cases h1 <;> cases h2 <;> simp_all [PyVal.keyPart, PyVal.toInt]

/-! ## C27 -/

theorem array1_ok (v : PyVal K) (a : NpArr K) :
    array v (dtype := .str "float64") (numDimensions := .int 1) = .ok a ↔
      v = .arr a ∧ a.dtype = "float64" ∧ a.shape.length = 1 := by
  have := C03_array_ok_iff false v a none none (some (.int 1)) (some "float64") (by simp) (by simp)
    (by simp)
  simp only [optArg, Option.map_some] at this
  rw [this]
  constructor
  · rintro ⟨h, -, h2, h3⟩
    refine ⟨h, h3 _ rfl, ?_⟩
    obtain ⟨n, hn, h4⟩ := h2 _ rfl
    cases hn
    exact_mod_cast h4
  · rintro ⟨h, h1, h2⟩
    refine ⟨h, by simp, ?_, ?_⟩
    · rintro d hd
      cases hd
      exact ⟨1, .int 1, by rw [h2]; simp⟩
    · rintro d hd; cases hd; exact h1

theorem sameShape2_ok (a b : NpArr K) :
    sameShapeArrays [.arr a, .arr b] 2 = .ok () ↔ a.shape = b.shape := by
  rw [C04_sameShapeArrays_iff]
  constructor
  · rintro ⟨-, -, as, has, h⟩
    match as, has with
    | [c, d], has =>
      simp only [List.map_cons, List.map_nil, List.cons.injEq, PyVal.arr.injEq, and_true] at has
      obtain ⟨rfl, rfl⟩ := has
      exact h a (by simp) b (by simp)
  · intro h
    refine ⟨by simp, rfl, [a, b], rfl, ?_⟩
    intro c hc d hd
    simp only [List.mem_cons, List.not_mem_nil, or_false] at hc hd
    rcases hc with rfl | rfl <;> rcases hd with rfl | rfl <;> simp [h]

/-- What `save_diagnostic` does. -/
theorem save_cases (d : Diagnostics K) (y x fy radius : PyVal K) :
    (∃ a b, d.extended = false ∧ GoodVectors fy radius a b ∧ IndexIn y d.maxY ∧ IndexIn x d.maxX ∧
      Diagnostics.save y x fy radius d = (.ok (), { d with
        fyDict := ((y.keyPart, x.keyPart), a.data) :: d.fyDict
        radiusDict := ((y.keyPart, x.keyPart), b.data) :: d.radiusDict })) ∨
    ((∃ e, Diagnostics.save y x fy radius d = (.error e, d)) ∧
      ¬ (d.extended = false ∧ (∃ a b, GoodVectors fy radius a b) ∧ IndexIn y d.maxY ∧
        IndexIn x d.maxX)) := by
  unfold Diagnostics.save
  simp only [Meth.get_bind]
  by_cases hext : d.extended = true
  · right
    rw [if_pos hext]
    exact ⟨⟨_, rfl⟩, by rintro ⟨h, -⟩; rw [hext] at h; cases h⟩
  · rw [if_neg hext]
    have hext' : d.extended = false := by simpa using hext
    cases h1 : array fy (dtype := .str "float64") (numDimensions := .int 1) with
    | error e =>
      right
      rw [Meth.lift_error_bind]
      refine ⟨⟨_, rfl⟩, ?_⟩
      rintro ⟨-, ⟨a, b, hg⟩, -⟩
      rw [(array1_ok fy a).2 ⟨hg.fy, hg.type_fy, hg.dim⟩] at h1
      cases h1
    | ok a =>
    rw [Meth.lift_ok_bind]
    cases h2 : array radius (dtype := .str "float64") (numDimensions := .int 1) with
    | error e =>
      right
      rw [Meth.lift_error_bind]
      refine ⟨⟨_, rfl⟩, ?_⟩
      rintro ⟨-, ⟨a, b, hg⟩, -⟩
      rw [(array1_ok radius b).2 ⟨hg.radius, hg.type_radius, hg.same ▸ hg.dim⟩] at h2
      cases h2
    | ok b =>
    rw [Meth.lift_ok_bind]
    obtain ⟨rfl, ha1, ha2⟩ := (array1_ok _ _).1 h1
    obtain ⟨rfl, hb1, hb2⟩ := (array1_ok _ _).1 h2
    cases h3 : sameShapeArrays [PyVal.arr a, .arr b] 2 with
    | error e =>
      right
      rw [Meth.lift_error_bind]
      refine ⟨⟨_, rfl⟩, ?_⟩
      rintro ⟨-, ⟨a', b', hg⟩, -⟩
      obtain rfl : a = a' := by simpa using hg.fy
      obtain rfl : b = b' := by simpa using hg.radius
      rw [(sameShape2_ok a b).2 hg.same] at h3
      cases h3
    | ok u =>
    rw [Meth.lift_ok_bind]
    have hup : ∀ n : ℕ, d.upper n + 1 = n := by
      intro n; simp [Diagnostics.upper, hext']
    cases h4 : d.generateKey y x with
    | error e =>
      right
      rw [Meth.lift_error_bind]
      refine ⟨⟨_, rfl⟩, ?_⟩
      rintro ⟨-, -, h5, h6⟩
      rw [(generateKey_ok d y x _).2 ⟨by rw [hup]; exact h5, by rw [hup]; exact h6, rfl⟩] at h4
      cases h4
    | ok k =>
      left
      obtain ⟨h5, h6, rfl⟩ := (generateKey_ok d y x k).1 h4
      rw [hup] at h5 h6
      refine ⟨a, b, hext', ⟨rfl, rfl, ha1, hb1, ha2, (sameShape2_ok a b).1 h3⟩, h5, h6, ?_⟩
      rw [Meth.lift_ok_bind, Meth.modify_bind, Meth.modify_apply]
      simp [Diagnostics.part, hext', Dict.set]

/-- **C27** `save_diagnostic` succeeds exactly for one-dimensional float vectors of equal length and
indices inside the slice; if it raises, nothing has changed. -/
theorem C27_save_ok_iff (d : Diagnostics K) (hd : d.extended = false) (y x fy radius : PyVal K) :
    ((∃ d', Diagnostics.save y x fy radius d = (.ok (), d')) ↔
      (∃ a b, GoodVectors fy radius a b) ∧ IndexIn y d.maxY ∧ IndexIn x d.maxX) ∧
    ∀ e d', Diagnostics.save y x fy radius d = (.error e, d') → d' = d := by
  rcases save_cases d y x fy radius with ⟨a, b, h1, h2, h3, h4, h⟩ | ⟨⟨e, h⟩, h'⟩
  · rw [h]
    refine ⟨⟨fun _ => ⟨⟨a, b, h2⟩, h3, h4⟩, fun _ => ⟨_, rfl⟩⟩, ?_⟩
    intro e d' he; cases he
  · rw [h]
    refine ⟨⟨?_, ?_⟩, ?_⟩
    · rintro ⟨d', h⟩; cases h
    · rintro ⟨g1, g2, g3⟩; exact absurd ⟨hd, g1, g2, g3⟩ h'
    · intro e' d' he; cases he; rfl

theorem get_unextended {d : Diagnostics K} (hd : d.extended = false) {y x : PyVal K}
    (hy : IndexIn y d.maxY) (hx : IndexIn x d.maxX) :
    d.get y x = (do
      let fy ← d.fyDict.get (y.keyPart, x.keyPart)
      let r ← d.radiusDict.get (y.keyPart, x.keyPart)
      .ok (fy, r)) := by
  have hup : ∀ n : ℕ, d.upper n + 1 = n := by intro n; simp [Diagnostics.upper, hd]
  unfold Diagnostics.get
  rw [(generateKey_ok d y x _).2 ⟨by rw [hup]; exact hy, by rw [hup]; exact hx, rfl⟩]
  simp only [Diagnostics.part, hd, Bool.false_eq_true, if_false]
  rfl

open Classical in
/-- **C27** After a successful save, reading the same cell gives the saved vectors and reading any
other cell gives what it gave before. -/
theorem C27_get_after_save (d d' : Diagnostics K) (y x fy radius : PyVal K) (a b : NpArr K)
    (hg : GoodVectors fy radius a b)
    (h : Diagnostics.save y x fy radius d = (.ok (), d')) (y' x' : PyVal K) :
    (SameIndex y y' ∧ SameIndex x x' → d'.get y' x' = .ok (a.data, b.data)) ∧
    (¬ (SameIndex y y' ∧ SameIndex x x') → d'.get y' x' = d.get y' x') := by
  rcases save_cases d y x fy radius with ⟨a', b', hext, h2, hy, hx, hs⟩ | ⟨⟨e, hs⟩, -⟩
  swap
  · rw [hs] at h; cases h
  rw [hs] at h
  cases h
  obtain rfl : a' = a := by have := h2.fy; rw [hg.fy] at this; simpa using this.symm
  obtain rfl : b' = b := by have := h2.radius; rw [hg.radius] at this; simpa using this.symm
  obtain ⟨n, hn, n1, n2⟩ := hy
  obtain ⟨m, hm, m1, m2⟩ := hx
  constructor
  · rintro ⟨s1, s2⟩
    obtain ⟨⟨k, k1, k2⟩, -⟩ := id s1
    obtain ⟨⟨l, l1, l2⟩, -⟩ := id s2
    obtain rfl := isInteger_unique k1 hn
    obtain rfl := isInteger_unique l1 hm
    rw [get_unextended (d := ⟨d.maxY, d.maxX, ((y.keyPart, x.keyPart), a'.data) :: d.fyDict,
        ((y.keyPart, x.keyPart), b'.data) :: d.radiusDict, d.extended⟩) (by exact hext)
      ⟨k, k2, n1, n2⟩ ⟨l, l2, m1, m2⟩,
      ← (keyPart_eq k1 k2).2 s1, ← (keyPart_eq l1 l2).2 s2]
    simp [Dict.get, bind, Except.bind]
  · intro hne
    by_cases hin : IndexIn y' d.maxY ∧ IndexIn x' d.maxX
    · obtain ⟨⟨n', hn', -⟩, ⟨m', hm', -⟩⟩ := id hin
      rw [get_unextended hext hin.1 hin.2,
        get_unextended (d := ⟨d.maxY, d.maxX, ((y.keyPart, x.keyPart), a'.data) :: d.fyDict,
        ((y.keyPart, x.keyPart), b'.data) :: d.radiusDict, d.extended⟩) (by exact hext) hin.1 hin.2]
      have hk : ((y'.keyPart, x'.keyPart) == (y.keyPart, x.keyPart)) = false := by
        rw [beq_eq_false_iff_ne]
        intro heq
        simp only [Prod.mk.injEq] at heq
        exact hne ⟨(keyPart_eq hn hn').1 heq.1.symm, (keyPart_eq hm hm').1 heq.2.symm⟩
      simp only [Dict.get, List.lookup_cons, hk]
    · have hup : ∀ n : ℕ, d.upper n + 1 = n := by intro n; simp [Diagnostics.upper, hext]
      have key : ∀ D : Diagnostics K, D.extended = false → D.maxY = d.maxY → D.maxX = d.maxX →
          ∀ k, D.generateKey y' x' ≠ .ok k := by
        intro D h1 h2 h3 k hk
        have hup : ∀ n : ℕ, D.upper n + 1 = n := by intro n; simp [Diagnostics.upper, h1]
        obtain ⟨g1, g2, -⟩ := (generateKey_ok D y' x' k).1 hk
        rw [hup, h2] at g1
        rw [hup, h3] at g2
        exact hin ⟨g1, g2⟩
      unfold Diagnostics.get
      have e : ∀ f r, ({ d with fyDict := f, radiusDict := r } : Diagnostics K).generateKey y' x' =
          d.generateKey y' x' := fun _ _ => rfl
      rw [e]
      cases hk : d.generateKey y' x' with
      | ok k => exact absurd hk (key d hext rfl rfl k)
      | error err => rfl

/-- **C27** Before anything was saved, reading a cell of the slice raises `KeyError`; indices that
are integers outside the slice always raise `ValueError`; other values `TypeError`. -/
theorem C27_get_errors (d : Diagnostics K) (hd : d.extended = false) (y x : PyVal K) :
    (IndexIn y d.maxY → IndexIn x d.maxX → d.fyDict = [] → d.get y x = .error .keyError) ∧
    (¬ (IndexIn y d.maxY ∧ IndexIn x d.maxX) → (∃ n, IsInteger y n) → (∃ n, IsInteger x n) →
      d.get y x = .error .valueError) ∧
    ((¬ ∃ n, IsInteger y n) → d.get y x = .error .typeError) := by
  have herr : ∀ (v : PyVal K) (u : ℤ), (¬ ∃ n, IsInteger v n) →
      number v (.bool true) (.int 0) (.int u) = .error .typeError := by
    intro v u hv
    apply (C01_number_errors true false v (.int 0) (.int u) _).2
    · rintro ⟨⟨z, (⟨n, hn, -⟩ | ⟨h, -⟩)⟩, -⟩
      · exact hv ⟨n, hn⟩
      · cases h
    · rintro ⟨z, l, u, (⟨n, hn, -⟩ | ⟨h, -⟩), -⟩
      · exact hv ⟨n, hn⟩
      · cases h
  have hval : ∀ (v : PyVal K) (n : ℤ) (s : ℕ), IsInteger v n → ¬ IndexIn v s →
      number v (.bool true) (.int 0) (.int ((s : ℤ) - 1)) = .error .valueError := by
    intro v n s hn hv
    have h1 : ∃ z, IsNumber true v z := ⟨_, Or.inl ⟨n, hn, rfl⟩⟩
    have h2 : ∀ k : ℤ, ∃ z, IsNumber false (.int k : PyVal K) z := fun k => ⟨_, Or.inl ⟨k, .int k, rfl⟩⟩
    apply (C01_number_errors true false v (.int 0) (.int ((s : ℤ) - 1)) _).1 ⟨h1, h2 _, h2 _⟩
    intro hacc
    have := (C01_number_ok_iff true false v v _ _).2 ⟨rfl, hacc⟩
    obtain ⟨-, k, hk, k1, k2⟩ := (number_between _ _ _).1 this
    exact hv ⟨k, hk, k1, by omega⟩
  have hup : ∀ n : ℕ, d.upper n = (n : ℤ) - 1 := by intro n; simp [Diagnostics.upper, hd]
  refine ⟨?_, ?_, ?_⟩
  · intro h1 h2 h3
    rw [get_unextended hd h1 h2, h3]
    rfl
  · intro h1 ⟨n, hn⟩ ⟨m, hm⟩
    unfold Diagnostics.get Diagnostics.generateKey
    rw [hup, hup]
    by_cases hy : IndexIn y d.maxY
    · have hx : ¬ IndexIn x d.maxX := fun hx => h1 ⟨hy, hx⟩
      obtain ⟨k, hk, k1, k2⟩ := hy
      rw [(number_between y y _).2 ⟨rfl, k, hk, k1, by omega⟩, hval x m _ hm hx]
      rfl
    · rw [hval y n _ hn hy]
      rfl
  · intro h1
    unfold Diagnostics.get Diagnostics.generateKey
    rw [herr _ _ h1]
    rfl

/-- A call of `save_diagnostic`. -/
structure SaveCall (K : Type) where
  y : PyVal K
  x : PyVal K
  fy : PyVal K
  radius : PyVal K

/-- A sequence of calls by a user who catches every exception. -/
def runSaves (calls : List (SaveCall K)) (d : Diagnostics K) : Diagnostics K :=
  calls.foldl (fun d c => Meth.exec (Diagnostics.save c.y c.x c.fy c.radius) d) d

/-- The call stores `(a, b)` in the cell `(y, x)` of a grid of the given size. -/
structure Spec.Stores (maxY maxX : ℕ) (c : SaveCall K) (y x : PyVal K) (a b : List (XF K)) : Prop where
  vectors : ∃ A B, GoodVectors c.fy c.radius A B ∧ A.data = a ∧ B.data = b
  y_in : IndexIn c.y maxY
  x_in : IndexIn c.x maxX
  y_eq : SameIndex c.y y
  x_eq : SameIndex c.x x

theorem save_preserves (d : Diagnostics K) (c : SaveCall K) :
    let d' := Meth.exec (Diagnostics.save c.y c.x c.fy c.radius) d
    d'.extended = d.extended ∧ d'.maxY = d.maxY ∧ d'.maxX = d.maxX := by
  simp only [Meth.exec]
  rcases save_cases d c.y c.x c.fy c.radius with ⟨a, b, h1, h2, h3, h4, h⟩ | ⟨⟨e, h⟩, h'⟩ <;> rw [h] <;>
    exact ⟨rfl, rfl, rfl⟩

/-- **C27** After any sequence of calls, `get_diagnostic` returns what the last call that stored
something in that cell stored; if there is none, what it returned before the sequence. -/
theorem C27_history (calls : List (SaveCall K)) (d : Diagnostics K) (hd : d.extended = false)
    (y x : PyVal K) :
    (∀ before c after a b, calls = before ++ c :: after → Stores d.maxY d.maxX c y x a b →
      (∀ c' ∈ after, ∀ a' b', ¬ Stores d.maxY d.maxX c' y x a' b') →
      (runSaves calls d).get y x = .ok (a, b)) ∧
    ((∀ c' ∈ calls, ∀ a' b', ¬ Stores d.maxY d.maxX c' y x a' b') →
      (runSaves calls d).get y x = d.get y x) := by
  have skip : ∀ (cs : List (SaveCall K)) (d : Diagnostics K), d.extended = false →
      (∀ c' ∈ cs, ∀ a' b', ¬ Stores d.maxY d.maxX c' y x a' b') →
      (runSaves cs d).get y x = d.get y x := by
    intro cs
    induction cs with
    | nil => intro d _ _; rfl
    | cons c cs ih =>
      intro d hd h
      obtain ⟨p1, p2, p3⟩ := save_preserves d c
      have := ih (Meth.exec (Diagnostics.save c.y c.x c.fy c.radius) d) (by rw [p1]; exact hd)
        (by rw [p2, p3]; exact fun c' hc => h c' (List.mem_cons_of_mem _ hc))
      simp only [runSaves, List.foldl_cons] at this ⊢
      rw [this]
      rcases save_cases d c.y c.x c.fy c.radius with ⟨a, b, h1, h2, h3, h4, hs⟩ | ⟨⟨e, hs⟩, -⟩
      · have hex : Diagnostics.save c.y c.x c.fy c.radius d =
            (.ok (), Meth.exec (Diagnostics.save c.y c.x c.fy c.radius) d) := by
          simp only [Meth.exec]; rw [hs]
        refine (C27_get_after_save d _ c.y c.x c.fy c.radius a b h2 hex y x).2 ?_
        rintro ⟨s1, s2⟩
        exact h c List.mem_cons_self a.data b.data ⟨⟨a, b, h2, rfl, rfl⟩, h3, h4, s1, s2⟩
      · simp only [Meth.exec]; rw [hs]
  refine ⟨?_, skip calls d hd⟩
  have pres : ∀ (cs : List (SaveCall K)) (d : Diagnostics K),
      (runSaves cs d).extended = d.extended ∧ (runSaves cs d).maxY = d.maxY ∧
      (runSaves cs d).maxX = d.maxX := by
    intro cs
    induction cs with
    | nil => intro d; exact ⟨rfl, rfl, rfl⟩
    | cons c cs ih =>
      intro d
      obtain ⟨p1, p2, p3⟩ := save_preserves d c
      obtain ⟨q1, q2, q3⟩ := ih (Meth.exec (Diagnostics.save c.y c.x c.fy c.radius) d)
      simp only [runSaves, List.foldl_cons] at q1 q2 q3 ⊢
      exact ⟨q1.trans p1, q2.trans p2, q3.trans p3⟩
  rintro before c after a b rfl hst hafter
  obtain ⟨p1, p2, p3⟩ := pres before d
  have e : runSaves (before ++ c :: after) d =
      runSaves after (Meth.exec (Diagnostics.save c.y c.x c.fy c.radius) (runSaves before d)) := by
    simp [runSaves, List.foldl_append]
  rw [e]
  obtain ⟨q1, q2, q3⟩ := save_preserves (runSaves before d) c
  rw [skip after _ (by rw [q1, p1]; exact hd) (by rw [q2, q3, p2, p3]; exact hafter)]
  obtain ⟨⟨A, B, hg, rfl, rfl⟩, hy, hx, s1, s2⟩ := hst
  obtain ⟨d', hs⟩ := (C27_save_ok_iff (runSaves before d) (by rw [p1]; exact hd) c.y c.x c.fy
    c.radius).1.2 ⟨⟨A, B, hg⟩, by rw [p2]; exact hy, by rw [p3]; exact hx⟩
  have he : Meth.exec (Diagnostics.save c.y c.x c.fy c.radius) (runSaves before d) = d' := by
    simp only [Meth.exec]; rw [hs]
  rw [he]
  exact (C27_get_after_save _ d' c.y c.x c.fy c.radius A B hg hs y x).1 ⟨s1, s2⟩

/-- A 2×3 grid for the examples. -/
def Spec.smallGrid : GridParams ℚ := gridOf (.fin 0) (.fin 1) 3 (.fin 0) (.fin 1) 2 (.fin 2) 2

/-- Saving and reading on a concrete grid. -/
example : let v : PyVal ℚ := .arr ⟨"float64", [2], [.fin 1, .fin 2]⟩
    let d := (Diagnostics.save (.int 1) (.int 2) v v (Diagnostics.new smallGrid)).2
    d.get (.npInt .w64 1) (.int 2) = .ok ([.fin 1, .fin 2], [.fin 1, .fin 2]) ∧
    d.get (.int 0) (.int 2) = .error .keyError ∧ d.get (.int 2) (.int 2) = .error .valueError := by
  decide +kernel

/-- **C27** The index `True` is accepted in place of 1 but names a cell of its own: what was saved
under `1` is not found under `True`. -/
theorem C27_bool_is_not_its_integer :
    let v : PyVal ℚ := .arr ⟨"float64", [2], [.fin 1, .fin 2]⟩
    let d := (Diagnostics.save (.int 1) (.int 1) v v (Diagnostics.new smallGrid)).2
    d.get (.int 1) (.int 1) = .ok ([.fin 1, .fin 2], [.fin 1, .fin 2]) ∧
    d.get (.bool true) (.int 1) = .error .keyError := by
  decide +kernel

/-! ## C28 -/

/-- **C28** After `extend` every save raises `RuntimeError` and changes nothing. -/
theorem C28_no_save_after_extend (d : Diagnostics K) (y x fy radius : PyVal K) :
    Diagnostics.save y x fy radius d.extend = (.error .runtimeError, d.extend) := by
  unfold Diagnostics.save
  simp [Diagnostics.extend]

/-- **C28** What the extended lookup does: it reads the entry saved for the cell
`(|i - ny|, |j - nx|)`, for every index of the mirrored grid. -/
theorem C28_lookup_partial (d : Diagnostics K) (y x : PyVal K) (i j : ℤ) (hi : IsInteger y i)
    (hj : IsInteger x j) (hi0 : 0 ≤ i) (hi1 : i < 2 * d.maxY - 1) (hj0 : 0 ≤ j)
    (hj1 : j < 2 * d.maxX - 1) :
    d.extend.get y x = (do
      let fy ← d.fyDict.get (.int |i - d.maxY|, .int |j - d.maxX|)
      let r ← d.radiusDict.get (.int |i - d.maxY|, .int |j - d.maxX|)
      .ok (fy, r)) := by
  have hup : ∀ n : ℕ, d.extend.upper n + 1 = 2 * n - 1 := by
    intro n; simp [Diagnostics.upper, Diagnostics.extend]; ring
  unfold Diagnostics.get
  rw [(generateKey_ok d.extend y x _).2 ⟨by rw [hup]; exact ⟨i, hi, hi0, hi1⟩,
    by rw [hup]; exact ⟨j, hj, hj0, hj1⟩, rfl⟩]
  simp only [Diagnostics.part, Diagnostics.extend, if_true, isInteger_toInt hi, isInteger_toInt hj]
  rfl

/-- **C28 is false** for every index: the cell that is looked up is never the mirrored cell. -/
theorem C28_false_everywhere (n : ℕ) (i : ℤ) : |i - n| ≠ |i - (n - 1)| := by
  intro h
  rcases abs_eq_abs.1 h with h | h <;> omega

/-- **C28 is false**: all cells of a 2×3 grid are saved, then extended; the centre of the mirrored
grid returns the vectors of the cell (1, 1) instead of (0, 0), and the corner raises `KeyError`. -/
theorem C28_false :
    let v (n : ℚ) : PyVal ℚ := .arr ⟨"float64", [1], [.fin n]⟩
    let d := runSaves [⟨.int 0, .int 0, v 0, v 0⟩, ⟨.int 0, .int 1, v 1, v 1⟩,
      ⟨.int 0, .int 2, v 2, v 2⟩, ⟨.int 1, .int 0, v 10, v 10⟩, ⟨.int 1, .int 1, v 11, v 11⟩,
      ⟨.int 1, .int 2, v 12, v 12⟩] (Diagnostics.new smallGrid)
    d.get (.int 0) (.int 0) = .ok ([.fin 0], [.fin 0]) ∧
    d.get (.int 1) (.int 2) = .ok ([.fin 12], [.fin 12]) ∧
    d.extend.get (.int 1) (.int 2) = .ok ([.fin 11], [.fin 11]) ∧
    d.extend.get (.int 0) (.int 0) = .error .keyError := by
  decide +kernel

/-! ## C29 -/

theorem diag_no_rmtree (d : Diagnostics K) (dir p : Path) :
    Step.rmtreeIfExists p ∉ d.saveSteps dir := by simp [Diagnostics.saveSteps]

/-- What a completed save of diagnostics loads as: everything but the extension flag. -/
theorem diag_load_after_save (fs fs' : FS K) (d : Diagnostics K) (dir : Path)
    (h : fs.run (d.saveSteps dir) = (.ok (), fs')) :
    Diagnostics.load fs' dir = .ok { d with extended := false } := by
  have h1 : fs'.at? (dir ++ ["fy_dict.npy"]) = some (.file (.dict d.fyDict)) :=
    FS.run_written (ss := [.mkdirIfMissing dir]) h (by simp) (by simp)
  have h2 : fs'.at? (dir ++ ["disk_radius_dict.npy"]) = some (.file (.dict d.radiusDict)) :=
    FS.run_written (ss := [.mkdirIfMissing dir, .write _ _]) h (by simp) (by simp)
  have h3 : fs'.at? (dir ++ ["max_yx.npy"]) = some (.file (.ints [d.maxY, d.maxX])) :=
    FS.run_written (ss := [.mkdirIfMissing dir, .write _ _, .write _ _]) (ts := []) h (by simp) (by simp)
  unfold Diagnostics.load Diagnostics.loadBody Diagnostics.loadDict Diagnostics.loadPair
  rw [FS.load_eq_ok h1 (by simp), FS.load_eq_ok h2 (by simp), FS.load_eq_ok h3 (by simp)]
  rfl

/-- **C29 (partial)** Before extension, the loaded object is equal to the saved one, so it answers
every call alike.  Missing for the full claim: extended diagnostics, for which it is false
(`C29_false`). -/
theorem C29_round_trip_partial (fs fs' : FS K) (d : Diagnostics K) (hd : d.extended = false)
    (dir : Path) (h : fs.run (d.saveSteps dir) = (.ok (), fs')) :
    ∃ d', Diagnostics.load fs' dir = .ok d' ∧ (∀ y x, d'.get y x = d.get y x) ∧
      ∀ y x fy r, (Diagnostics.save y x fy r d').1 = (Diagnostics.save y x fy r d).1 := by
  refine ⟨d, ?_, fun _ _ => rfl, fun _ _ _ _ => rfl⟩
  rw [diag_load_after_save fs fs' d dir h, ← hd]

/-- **C29 is false** after `extend`: the loaded object answers for the unextended grid. -/
theorem C29_false :
    let v : PyVal ℚ := .arr ⟨"float64", [1], [.fin 7]⟩
    let d := (runSaves [⟨.int 0, .int 0, v, v⟩] (Diagnostics.new smallGrid)).extend
    ∃ (fs : FS ℚ) (d' : Diagnostics ℚ), FS.run [] (d.saveSteps ["d"]) = (.ok (), fs) ∧
      Diagnostics.load fs ["d"] = .ok d' ∧
      d'.get (.int 0) (.int 0) = .ok ([.fin 7], [.fin 7]) ∧
      d.get (.int 0) (.int 0) = .error .keyError := by
  intro v d
  refine ⟨(FS.run [] (d.saveSteps ["d"])).2, { d with extended := false }, ?_⟩
  decide +kernel

end Beyonce
