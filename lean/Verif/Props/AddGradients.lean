import Verif.Props.Getters

/-!
# C39, C42: adding gradients
-/

set_option linter.unusedSectionVars false

namespace Beyonce
open Spec

section
variable {K : Type} [Field K] [LinearOrder K] [IsStrictOrderedRing K] [RealFns K]

/-! ## What the loops do -/

/-- The gradient of one position as it is appended. -/
def blank (s : Shallot K) (x : XF K) : GGrad K :=
  ⟨⟨.gradient, .none, s.params, s.gradientCube x, none, nanmin (s.gradientCube x).data,
    nanmax (s.gradientCube x).data, "viridis", 11⟩, .npFloat .w64 x, none, none, none, none⟩

theorem float_number (x : XF K) : number (K := K) (.npFloat .w64 x) = .ok (.npFloat .w64 x) := by
  rcases number_iff' (K := K) (.npFloat .w64 x) (.float .ninf) (.float .pinf) _ _
    (Or.inr ⟨rfl, .float _⟩) (Or.inr ⟨rfl, .float _⟩) (by rw [less_iff]; simp) with ⟨h, -⟩ | ⟨e, -, h⟩
  · exact h
  · exact absurd ⟨Or.inr ⟨rfl, .npFloat _ _⟩, by rw [less_iff]; cases x <;> simp [PyVal.num, XF.lt],
      by rw [less_iff]; cases x <;> simp [PyVal.num, XF.lt]⟩ h

theorem new_blank (s : Shallot K) (x : XF K) :
    GGrad.new (.arr ⟨"float64", (s.gradientCube x).shape, (s.gradientCube x).data⟩) s.params
      (.npFloat .w64 x) = .ok (blank s x) := by
  unfold GGrad.new
  rw [(prop_new_ok_iff _ _ _ _ _).2 ⟨_, rfl, rfl, rfl, rfl⟩, float_number]
  rfl

theorem blank_congr {s s' : Shallot K} (h1 : s'.params = s.params) (h2 : s'.shear = s.shear)
    (h3 : s'.fxMap.data = s.fxMap.data) (h4 : s'.fyMap.data = s.fyMap.data) (x : XF K) :
    blank s' x = blank s x := by
  have : s'.gradientCube x = s.gradientCube x := by
    unfold Shallot.gradientCube
    rw [h1, h2, h3, h4]
  unfold blank
  rw [this, h1]

theorem appendGradients_eq : ∀ (l : List (XF K)) (s : Shallot K) (old : List (GGrad K)),
    s.gradients = some old →
    Shallot.appendGradients l s = (.ok (), { s with gradients := some (old ++ l.map (blank s)) })
  | [], s, old, h => by
    unfold Shallot.appendGradients
    simp [← h]
  | x :: l, s, old, h => by
    unfold Shallot.appendGradients
    simp only [Meth.get_bind, new_blank, Meth.lift_ok_bind]
    rw [bind_ok _ _ _ _ () (Meth.set_apply _ _), appendGradients_eq l _ (old ++ [blank s x]) (by simp [h])]
    have : ∀ y, blank { s with gradients := some (s.gradients.getD [] ++ [blank s x]) } y = blank s y :=
      fun y => blank_congr rfl rfl rfl rfl y
    have hf : blank { s with gradients := some (s.gradients.getD [] ++ [blank s x]) } = blank s :=
      funext this
    rw [hf]
    simp

/-- `determine_mask` with the numbers of one measurement. -/
def measure (scale : PyVal K) (q : XF K × XF K × XF K) (g : GGrad K) : Except Err Unit × GGrad K :=
  GGrad.determineMask (.npFloat .w64 q.1) scale (.npFloat .w64 q.2.2) (.npFloat .w64 q.2.1) g

theorem measureLoop_eq (scale : PyVal K) (ms : List (XF K × XF K × XF K)) (s : Shallot K)
    (pre gs : List (GGrad K)) (h : s.gradients = some (pre ++ gs)) (hl : gs.length = ms.length) :
    ((∀ p ∈ ms.zip gs, (measure scale p.1 p.2).1 = .ok ()) ∧
      Shallot.measureLoop scale pre.length ms s =
        (.ok (), { s with gradients := some (pre ++ (ms.zip gs).map fun p => (measure scale p.1 p.2).2) })) ∨
    ((∃ p ∈ ms.zip gs, ∃ e, (measure scale p.1 p.2).1 = .error e) ∧ ∃ e gs', gs'.length = gs.length ∧
      Shallot.measureLoop scale pre.length ms s = (.error e, { s with gradients := some (pre ++ gs') })) := by
  induction ms generalizing s pre gs with
  | nil =>
    obtain rfl : gs = [] := List.length_eq_zero_iff.1 hl
    left
    refine ⟨by simp, ?_⟩
    unfold Shallot.measureLoop
    have : some pre = s.gradients := by rw [h]; simp
    simp [this]
  | cons q ms ih =>
    obtain ⟨g, gs, rfl⟩ : ∃ g gs', gs = g :: gs' := by
      cases gs with
      | nil => simp at hl
      | cons g gs => exact ⟨g, gs, rfl⟩
    obtain ⟨m, e, t⟩ := q
    unfold Shallot.measureLoop
    simp only [Meth.get_bind, h, Option.getD_some]
    rw [if_pos (by simp)]
    have hk : (s.gradients.getD [])[pre.length]? = some g := by rw [h]; simp
    have hon : Shallot.onGradient pre.length (GGrad.determineMask (.npFloat .w64 m) scale (.npFloat .w64 t)
        (.npFloat .w64 e)) s = ((measure scale (m, e, t) g).1,
          { s with gradients := some (pre ++ (measure scale (m, e, t) g).2 :: gs) }) := by
      unfold Shallot.onGradient
      rw [hk]
      simp only [h, Option.getD_some, measure]
      congr 3
      simp
    obtain ⟨r, hr⟩ : ∃ r, r = measure scale (m, e, t) g := ⟨_, rfl⟩
    rw [← hr] at hon
    obtain ⟨r1, r2⟩ := r
    cases r1 with
    | error er =>
      right
      refine ⟨⟨((m, e, t), g), by simp, er, by rw [← hr]⟩, er, r2 :: gs, by simp, ?_⟩
      rw [bind_err _ _ _ _ er hon]
    | ok u =>
      cases u
      rw [bind_ok _ _ _ _ () hon]
      have ih := ih { s with gradients := some (pre ++ r2 :: gs) } (pre ++ [r2]) gs
        (by simp) (by simpa using hl)
      simp only [List.length_append, List.length_singleton] at ih
      rcases ih with ⟨h1, h2⟩ | ⟨⟨p, hp, h1⟩, e', gs', h2, h3⟩
      · left
        refine ⟨?_, ?_⟩
        · intro p hp
          rw [List.zip_cons_cons, List.mem_cons] at hp
          rcases hp with rfl | hp
          · simp only; rw [← hr]
          · exact h1 p hp
        · rw [h2]
          simp [← hr]
      · right
        refine ⟨⟨p, by simp [hp], h1⟩, e', r2 :: gs', by simp [h2], ?_⟩
        rw [h3]
        simp

/-! ## Validated vectors -/

/-- A one-dimensional array of floats. -/
structure Spec.Floats (v : PyVal K) (a : NpArr K) : Prop where
  arr : v = .arr a
  type : a.dtype = "float64"
  flat : a.shape.length = 1

theorem lower_ok (v : PyVal K) (a : NpArr K) (lo : PyVal K) (l : XF K) (hlo : lo ≠ .none)
    (hl : IsNumber false lo l) (hl' : ¬ Less .pinf l) :
    array v (lower := lo) (dtype := .str "float64") (numDimensions := .int 1) = .ok a ↔
      Floats v a ∧ ∀ x ∈ a.data, ¬ Less x l := by
  have := C03_array_ok_iff false v a (some lo) none (some (.int 1)) (some "float64")
    (by simpa using hlo) (by simp) (by simp)
  simp only [optArg, Option.map_some] at this
  rw [this]
  constructor
  · rintro ⟨h, h1, h2, h3⟩
    obtain ⟨n, hn, h4⟩ := h2 _ rfl
    cases hn
    obtain ⟨l', u, g1, g2, -, g4⟩ := h1 (Or.inl rfl)
    obtain rfl := isNumber_unique g1 hl
    refine ⟨⟨h, h3 _ rfl, by exact_mod_cast h4⟩, fun x hx hlt => g4 x hx ?_⟩
    simp only [Violates, Bool.false_eq_true, if_false]
    exact Or.inl hlt
  · rintro ⟨⟨h, h1, h2⟩, h3⟩
    refine ⟨h, ⟨fun _ => ⟨l, .pinf, hl, Or.inr ⟨rfl, .float _⟩, hl', fun x hx => ?_⟩, ?_, ?_⟩⟩
    · simp only [Violates, Bool.false_eq_true, if_false, not_or]
      exact ⟨h3 x hx, by rw [less_iff]; cases x <;> simp [XF.lt]⟩
    · rintro _ ⟨⟩
      exact ⟨1, .int 1, by simp [h2]⟩
    · rintro _ ⟨⟩
      exact h1

theorem both_ok (v : PyVal K) (a : NpArr K) (lo hi : PyVal K) (l u : XF K) (hlo : lo ≠ .none)
    (hhi : hi ≠ .none) (hl : IsNumber false lo l) (hu : IsNumber false hi u) (hl' : ¬ Less u l) :
    array v (lower := lo) (upper := hi) (dtype := .str "float64") (numDimensions := .int 1) = .ok a ↔
      Floats v a ∧ ∀ x ∈ a.data, ¬ Less x l ∧ ¬ Less u x := by
  have := C03_array_ok_iff false v a (some lo) (some hi) (some (.int 1)) (some "float64")
    (by simpa using hlo) (by simpa using hhi) (by simp)
  simp only [optArg, Option.map_some] at this
  rw [this]
  constructor
  · rintro ⟨h, h1, h2, h3⟩
    obtain ⟨n, hn, h4⟩ := h2 _ rfl
    cases hn
    obtain ⟨l', u', g1, g2, -, g4⟩ := h1 (Or.inl rfl)
    obtain rfl := isNumber_unique g1 hl
    obtain rfl := isNumber_unique g2 hu
    refine ⟨⟨h, h3 _ rfl, by exact_mod_cast h4⟩, fun x hx => ?_⟩
    have := g4 x hx
    simpa only [Violates, Bool.false_eq_true, if_false, not_or] using this
  · rintro ⟨⟨h, h1, h2⟩, h3⟩
    refine ⟨h, ⟨fun _ => ⟨l, u, hl, hu, hl', fun x hx => ?_⟩, ?_, ?_⟩⟩
    · simp only [Violates, Bool.false_eq_true, if_false, not_or]
      exact h3 x hx
    · rintro _ ⟨⟩
      exact ⟨1, .int 1, by simp [h2]⟩
    · rintro _ ⟨⟩
      exact h1

/-- The elements of an array fit its shape, as numpy has it. -/
def Spec.Whole (v : PyVal K) : Prop := ∀ a, v = .arr a → a.data.length = a.shape.prod

theorem whole_same {v w : PyVal K} {a b : NpArr K} (hv : Whole v) (hw : Whole w) (ha : v = .arr a)
    (hb : w = .arr b) (h : a.shape = b.shape) : a.data.length = b.data.length := by
  rw [hv a ha, hw b hb, h]

theorem sameShape3_ok (a b c : NpArr K) :
    sameShapeArrays [.arr a, .arr b, .arr c] 3 = .ok () ↔ a.shape = b.shape ∧ a.shape = c.shape := by
  rw [C04_sameShapeArrays_iff]
  constructor
  · rintro ⟨-, -, as, has, h⟩
    match as, has with
    | [d, e, f], has =>
      simp only [List.map_cons, List.map_nil, List.cons.injEq, PyVal.arr.injEq, and_true] at has
      obtain ⟨rfl, rfl, rfl⟩ := has
      exact ⟨h a (by simp) b (by simp), h a (by simp) c (by simp)⟩
  · rintro ⟨h1, h2⟩
    refine ⟨by simp, rfl, [a, b, c], rfl, ?_⟩
    have key : ∀ x ∈ [a, b, c], x.shape = a.shape := by
      intro x hx
      simp only [List.mem_cons, List.not_mem_nil, or_false] at hx
      rcases hx with rfl | rfl | rfl
      · rfl
      · exact h1.symm
      · exact h2.symm
    intro x hx y hy
    rw [key x hx, key y hy]

/-! ## All that `add_gradients` does -/

/-- One measurement: time, light curve gradient, error, transmission change. -/
structure Spec.Measurement (K : Type) where
  time : XF K
  slope : XF K
  error : XF K
  transmission : XF K

/-- The gradient that a measurement gives, and whether `determine_mask` accepts it. -/
def gradientOf (s : Shallot K) (duration scale : PyVal K) (q : Measurement K) :
    Except Err Unit × GGrad K :=
  measure scale (q.slope.abs, q.error, q.transmission) (blank s (q.time.neg.div duration.num))

/-- The measurements in four columns. -/
def rowsOf (t l e r : List (XF K)) : List (Measurement K) :=
  (t.zip (l.zip (e.zip r))).map fun q => ⟨q.1, q.2.1, q.2.2.1, q.2.2.2⟩

/-- The arguments that let `add_gradients` get to the end: the arrays of times, slopes, errors and
transmission changes. -/
structure Spec.Arguments (times lc errors transmissions : PyVal K) (t l e r : NpArr K) : Prop where
  times : Floats times t
  slopes : Floats lc l
  positive : ∀ x ∈ l.data, ¬ Less x (.fin 0)
  shape : t.shape = l.shape
  errors : Floats (Shallot.orOnes errors l) e
  notNegative : ∀ x ∈ e.data, ¬ Less x (.fin 0)
  shape' : l.shape = e.shape
  transmissions : Floats (Shallot.orOnes transmissions l) r
  fraction : ∀ x ∈ r.data, ¬ Less x (.fin 0) ∧ ¬ Less (.fin 1) x
  shape'' : l.shape = r.shape

/-- The duration as it is used. -/
structure Spec.Duration (s : Shallot K) (d : PyVal K) : Prop where
  eq : s.eclipseDuration = some d
  plain : Shallot.quotientType d = "float64"

theorem orOnes_whole {v : PyVal K} {l : NpArr K} (hv : Whole v) (hl : Whole (.arr l)) :
    Whole (Shallot.orOnes v l) := by
  unfold Shallot.orOnes
  split_ifs
  · rintro a ⟨⟩
    simpa using hl l rfl
  · exact hv

/-- `setMeasured` on a grid to which the gradients `gs` have been appended. -/
theorem setMeasured_cases (l : NpArr K) (errors transmissions : PyVal K) (s : Shallot K)
    (pre gs : List (GGrad K)) (hg : s.gradients = some (pre ++ gs)) (hlen : gs.length = l.data.length)
    (hl : Whole (.arr l)) (he : Whole errors) (ht : Whole transmissions) :
    (∃ e r scale, Floats (Shallot.orOnes errors l) e ∧ (∀ x ∈ e.data, ¬ Less x (.fin 0)) ∧
      l.shape = e.shape ∧ Floats (Shallot.orOnes transmissions l) r ∧
      (∀ x ∈ r.data, ¬ Less x (.fin 0) ∧ ¬ Less (.fin 1) x) ∧ l.shape = r.shape ∧
      s.orbital = .ok scale ∧
      (∀ p ∈ ((l.data.map XF.abs).zip (e.data.zip r.data)).zip gs, (measure scale p.1 p.2).1 = .ok ()) ∧
      Shallot.setMeasured l errors transmissions s = (.ok (), { s with
        gradients := some (pre ++ (((l.data.map XF.abs).zip (e.data.zip r.data)).zip gs).map fun p =>
          (measure scale p.1 p.2).2) })) ∨
    (∃ er gs', gs'.length = gs.length ∧
      Shallot.setMeasured l errors transmissions s = (.error er, { s with gradients := some (pre ++ gs') }) ∧
      ((¬ ∃ e, Floats (Shallot.orOnes errors l) e ∧ ∀ x ∈ e.data, ¬ Less x (.fin 0)) → gs' = gs) ∧
      ∀ e r scale, Floats (Shallot.orOnes errors l) e → (∀ x ∈ e.data, ¬ Less x (.fin 0)) →
      l.shape = e.shape → Floats (Shallot.orOnes transmissions l) r →
      (∀ x ∈ r.data, ¬ Less x (.fin 0) ∧ ¬ Less (.fin 1) x) → l.shape = r.shape →
      s.orbital = .ok scale →
      ∃ p ∈ ((l.data.map XF.abs).zip (e.data.zip r.data)).zip gs, ∃ er', (measure scale p.1 p.2).1 = .error er') := by
  have e0 : (.fin ((0 : ℤ) : K) : XF K) = .fin 0 := by simp
  have e1 : (.fin ((1 : ℤ) : K) : XF K) = .fin 1 := by simp
  have hE := fun a => lower_ok (Shallot.orOnes errors l) a (.float (.fin 0)) (.fin 0) (by simp)
    (Or.inr ⟨rfl, .float _⟩) (by rw [less_iff]; simp)
  have hT := fun a => both_ok (Shallot.orOnes transmissions l) a (.int 0) (.int 1) (.fin 0) (.fin 1)
    (by simp) (by simp) (by rw [← e0]; exact int_isNumber 0) (by rw [← e1]; exact int_isNumber 1)
    (by rw [less_iff]; simp)
  have same : { s with gradients := some (pre ++ gs) } = s := by rw [← hg]
  unfold Shallot.setMeasured
  cases h1 : array (Shallot.orOnes errors l) (lower := .float (.fin 0)) (dtype := .str "float64")
    (numDimensions := .int 1) with
  | error er =>
    right
    refine ⟨er, gs, rfl, by rw [same]; rfl, fun _ => rfl, ?_⟩
    intro e r scale h2 h3
    rw [(hE e).2 ⟨h2, h3⟩] at h1
    cases h1
  | ok e =>
    obtain ⟨f1, f2⟩ := (hE e).1 h1
    rw [Meth.lift_ok_bind]
    cases h2 : array (Shallot.orOnes transmissions l) (lower := .int 0) (upper := .int 1)
      (dtype := .str "float64") (numDimensions := .int 1) with
    | error er =>
      right
      refine ⟨er, gs, rfl, by rw [same]; rfl, fun _ => rfl, ?_⟩
      intro e r scale _ _ _ h3 h4
      rw [(hT r).2 ⟨h3, h4⟩] at h2
      cases h2
    | ok r =>
      obtain ⟨f3, f4⟩ := (hT r).1 h2
      rw [Meth.lift_ok_bind]
      have uniq : ∀ e', Floats (Shallot.orOnes errors l) e' → e' = e := by
        intro e' h
        have := h.arr.symm.trans f1.arr
        simpa using this
      have uniq' : ∀ r', Floats (Shallot.orOnes transmissions l) r' → r' = r := by
        intro r' h
        have := h.arr.symm.trans f3.arr
        simpa using this
      cases h3 : sameShapeArrays [.arr l, .arr e, .arr r] 3 with
      | error er =>
        right
        refine ⟨er, gs, rfl, by rw [same]; rfl, fun _ => rfl, ?_⟩
        intro e' r' scale g1 _ g2 g3 _ g4
        rw [uniq e' g1] at g2
        rw [uniq' r' g3] at g4
        rw [(sameShape3_ok _ _ _).2 ⟨g2, g4⟩] at h3
        cases h3
      | ok u =>
        obtain ⟨f5, f6⟩ := (sameShape3_ok _ _ _).1 h3
        rw [Meth.lift_ok_bind]
        simp only [Meth.get_bind]
        cases h4 : s.orbital with
        | error er =>
          right
          refine ⟨er, gs, rfl, by rw [same]; rfl, fun _ => rfl, ?_⟩
          rintro _ _ _ _ _ _ _ _ _ ⟨⟩
        | ok scale =>
          rw [Meth.lift_ok_bind]
          have l1 : l.data.length = e.data.length :=
            whole_same hl (orOnes_whole he hl) rfl f1.arr f5
          have l2 : l.data.length = r.data.length :=
            whole_same hl (orOnes_whole ht hl) rfl f3.arr f6
          have hst : Shallot.sliceStart (s.gradients.getD []).length l.data.length = pre.length ∨
              l.data = [] := by
            unfold Shallot.sliceStart
            rw [hg]
            by_cases h0 : l.data.length = 0
            · exact Or.inr (List.length_eq_zero_iff.1 h0)
            · left
              rw [if_neg h0]
              simp only [Option.getD_some, List.length_append]
              omega
          have key := measureLoop_eq scale ((l.data.map XF.abs).zip (e.data.zip r.data)) s pre gs hg
            (by simp [← l1, ← l2, hlen])
          have hgo : Shallot.measureLoop scale (Shallot.sliceStart (s.gradients.getD []).length l.data.length)
              ((l.data.map XF.abs).zip (e.data.zip r.data)) s = Shallot.measureLoop scale pre.length
              ((l.data.map XF.abs).zip (e.data.zip r.data)) s := by
            rcases hst with h | h
            · rw [h]
            · rw [h]; rfl
          rw [hgo]
          rcases key with ⟨k1, k2⟩ | ⟨⟨p, k1, k2⟩, er, gs', k3, k4⟩
          · left
            exact ⟨e, r, scale, f1, f2, f5, f3, f4, f6, rfl, k1, k2⟩
          · right
            refine ⟨er, gs', k3, k4, fun hno => absurd ⟨e, f1, f2⟩ hno, ?_⟩
            intro e' r' scale' g1 _ _ g2 _ _ g3
            rw [uniq e' g1, uniq' r' g2]
            cases g3
            exact ⟨p, k1, k2⟩

/-- Everything `add_gradients` can do. -/
theorem addGradients_cases (times lc errors transmissions : PyVal K) (ht : Whole times)
    (hl : Whole lc) (he : Whole errors) (hr : Whole transmissions) (s : Shallot K) :
    (s.ready = false ∧ Shallot.addGradients times lc errors transmissions s = (.ok (), s)) ∨
    (s.ready = true ∧ (∃ er, Shallot.addGradients times lc errors transmissions s = (.error er, s)) ∧
      ¬ ∃ t l d, Floats times t ∧ Floats lc l ∧ (∀ x ∈ l.data, ¬ Less x (.fin 0)) ∧
        t.shape = l.shape ∧ Duration s d) ∨
    (s.ready = true ∧ ∃ t l d, Floats times t ∧ Floats lc l ∧ (∀ x ∈ l.data, ¬ Less x (.fin 0)) ∧
      t.shape = l.shape ∧ Duration s d ∧
      ((∃ e r scale, Arguments times lc errors transmissions t l e r ∧ s.orbital = .ok scale ∧
          t.data.length = l.data.length ∧ t.data.length = e.data.length ∧
          t.data.length = r.data.length ∧
          (∀ q ∈ rowsOf t.data l.data e.data r.data, (gradientOf s d scale q).1 = .ok ()) ∧
          Shallot.addGradients times lc errors transmissions s = (.ok (), { s with
            gradients := some (s.gradients.getD [] ++
              (rowsOf t.data l.data e.data r.data).map fun q => (gradientOf s d scale q).2)
            gradientFit := none })) ∨
        ∃ er gs, gs.length = t.data.length ∧
          Shallot.addGradients times lc errors transmissions s =
            (.error er, { s with gradients := some (s.gradients.getD [] ++ gs) }) ∧
          ((¬ ∃ e, Floats (Shallot.orOnes errors l) e ∧ ∀ x ∈ e.data, ¬ Less x (.fin 0)) →
            gs = t.data.map fun x => blank s (x.neg.div d.num)) ∧
          ∀ e r scale, Arguments times lc errors transmissions t l e r → s.orbital = .ok scale →
            ∃ q ∈ rowsOf t.data l.data e.data r.data, ∃ er', (gradientOf s d scale q).1 = .error er')) := by
  have hL := fun a => lower_ok lc a (.float (.fin 0)) (.fin 0) (by simp) (Or.inr ⟨rfl, .float _⟩)
    (by rw [less_iff]; simp)
  have hT : ∀ a, array times (dtype := .str "float64") (numDimensions := .int 1) = .ok a ↔ Floats times a := by
    intro a
    rw [array1_ok]
    exact ⟨fun ⟨h1, h2, h3⟩ => ⟨h1, h2, h3⟩, fun ⟨h1, h2, h3⟩ => ⟨h1, h2, h3⟩⟩
  unfold Shallot.addGradients
  rw [Meth.get_bind]
  cases hready : s.ready with
  | false => left; exact ⟨rfl, rfl⟩
  | true =>
    right
    rw [if_pos rfl]
    cases h1 : array times (dtype := .str "float64") (numDimensions := .int 1) with
    | error er =>
      left
      refine ⟨rfl, ⟨er, rfl⟩, ?_⟩
      rintro ⟨t, l, d, g1, -⟩
      rw [(hT t).2 g1] at h1; cases h1
    | ok t =>
      have f1 := (hT t).1 h1
      rw [Meth.lift_ok_bind]
      cases h2 : array lc (lower := .float (.fin 0)) (dtype := .str "float64")
        (numDimensions := .int 1) with
      | error er =>
        left
        refine ⟨rfl, ⟨er, rfl⟩, ?_⟩
        rintro ⟨t, l, d, -, g1, g2, -⟩
        rw [(hL l).2 ⟨g1, g2⟩] at h2; cases h2
      | ok l =>
        obtain ⟨f2, f3⟩ := (hL l).1 h2
        rw [Meth.lift_ok_bind]
        cases h3 : sameShapeArrays [.arr t, .arr l] 2 with
        | error er =>
          left
          refine ⟨rfl, ⟨er, rfl⟩, ?_⟩
          rintro ⟨t', l', d, g1, g2, -, g3, -⟩
          have : t' = t := by have := g1.arr.symm.trans f1.arr; simpa using this
          subst this
          have : l' = l := by have := g2.arr.symm.trans f2.arr; simpa using this
          subst this
          rw [(sameShape2_ok _ _).2 g3] at h3; cases h3
        | ok u =>
          have f4 := (sameShape2_ok _ _).1 h3
          rw [Meth.lift_ok_bind]
          obtain ⟨d, hd⟩ : ∃ d, s.eclipseDuration = some d := by
            rw [← Option.isSome_iff_exists]
            unfold Shallot.ready at hready
            simp only [Bool.and_eq_true] at hready
            exact hready.1.2
          rw [hd]
          simp only [needNumber, Meth.lift_ok_bind]
          by_cases hq : Shallot.quotientType d = "float64"
          · right
            simp only [true_and]
            have fd : Duration s d := ⟨hd, hq⟩
            refine ⟨t, l, d, f1, f2, f3, f4, fd, ?_⟩
            obtain ⟨ps, hps⟩ : ∃ ps, ps = t.data.map fun x => x.neg.div d.num := ⟨_, rfl⟩
            obtain ⟨s₁, hs₁⟩ : ∃ s₁ : Shallot K, s₁ = { s with
              gradients := some (s.gradients.getD [] ++ ps.map (blank s)) } := ⟨_, rfl⟩
            have hdet : Shallot.determineDiskGradients (Shallot.positionsOf t d) s = (.ok (), s₁) := by
              unfold Shallot.determineDiskGradients
              have : array (.arr (Shallot.positionsOf t d)) (dtype := .str "float64")
                  (numDimensions := .int 1) = .ok (Shallot.positionsOf t d) := by
                rw [array1_ok]
                exact ⟨rfl, hq, f1.flat⟩
              rw [this, Meth.lift_ok_bind, Meth.modify_bind,
                appendGradients_eq _ _ (s.gradients.getD []) rfl, hs₁, hps]
              have hb : blank { s with gradients := some (s.gradients.getD []) } = blank s :=
                funext fun y => blank_congr rfl rfl rfl rfl y
              rw [hb]
              rfl
            rw [bind_ok _ _ _ _ () hdet]
            have ltl : t.data.length = l.data.length := whole_same ht hl f1.arr f2.arr f4
            have hpl : (ps.map (blank s)).length = l.data.length := by simp [hps, ltl]
            have hfl : Whole (.arr l : PyVal K) := by
              rintro a ⟨⟩
              exact hl l f2.arr
            have horb : s₁.orbital = s.orbital := by rw [hs₁]; rfl
            have hrow : ∀ e r : NpArr K, ∀ scale : PyVal K,
                (((l.data.map XF.abs).zip (e.data.zip r.data)).zip (ps.map (blank s))).map
                  (fun p => measure scale p.1 p.2) =
                (rowsOf t.data l.data e.data r.data).map (gradientOf s d scale) := by
              intro e r scale
              subst hps
              unfold rowsOf
              apply List.ext_getElem?
              intro i
              simp only [List.getElem?_map, List.getElem?_zip_eq_some, List.zip, List.getElem?_zipWith]
              cases t.data[i]? <;> cases l.data[i]? <;> cases e.data[i]? <;> cases r.data[i]? <;> rfl
            rcases setMeasured_cases l errors transmissions s₁ (s.gradients.getD []) (ps.map (blank s))
              (by rw [hs₁]) hpl hfl he hr with
              ⟨e, r, scale, k1, k2, k3, k4, k5, k6, k7, k8, k9⟩ | ⟨er, gs', k1, k2, k2', k3⟩
            · left
              refine ⟨e, r, scale, ⟨f1, f2, f3, f4, k1, k2, k3, k4, k5, k6⟩, by rw [← horb, k7], ltl, ?_, ?_,
                ?_, ?_⟩
              · rw [ltl]; exact whole_same hfl (orOnes_whole he hfl) rfl k1.arr k3
              · rw [ltl]; exact whole_same hfl (orOnes_whole hr hfl) rfl k4.arr k6
              · intro q hq
                have : gradientOf s d scale q ∈ (rowsOf t.data l.data e.data r.data).map
                    (gradientOf s d scale) := List.mem_map_of_mem hq
                rw [← hrow] at this
                obtain ⟨p, hp, hp'⟩ := List.mem_map.1 this
                rw [← hp']
                exact k8 p hp
              · rw [bind_ok _ _ _ _ () k9]
                unfold Shallot.resetFit
                rw [Meth.modify_apply]
                have := congrArg (List.map Prod.snd) (hrow e r scale)
                simp only [List.map_map] at this
                have h2 : (((l.data.map XF.abs).zip (e.data.zip r.data)).zip (ps.map (blank s))).map
                    (fun p => (measure scale p.1 p.2).2) = (rowsOf t.data l.data e.data r.data).map
                    (fun q => (gradientOf s d scale q).2) := this
                rw [h2, hs₁]
                simp only [hd]
            · right
              refine ⟨er, gs', by rw [k1, hpl, ltl], ?_, ?_, ?_⟩
              · rw [bind_err _ _ _ _ er k2, hs₁]
                simp only [hd]
              · intro hno
                rw [k2' hno, hps, List.map_map]
                rfl
              · intro e r scale ha ho
                obtain ⟨p, hp, er', hp'⟩ := k3 e r scale ha.errors ha.notNegative ha.shape'
                  ha.transmissions ha.fraction ha.shape'' (by rw [horb, ho])
                have : measure scale p.1 p.2 ∈ (((l.data.map XF.abs).zip (e.data.zip r.data)).zip
                    (ps.map (blank s))).map (fun p => measure scale p.1 p.2) :=
                  List.mem_map.2 ⟨p, hp, rfl⟩
                rw [hrow] at this
                obtain ⟨q, hq, hq'⟩ := List.mem_map.1 this
                exact ⟨q, hq, er', by rw [hq', hp']⟩
          · left
            refine ⟨trivial, ?_, ?_⟩
            · have hdet : ∃ er, Shallot.determineDiskGradients (Shallot.positionsOf t d) s = (.error er, s) := by
                unfold Shallot.determineDiskGradients
                cases h : array (.arr (Shallot.positionsOf t d)) (dtype := .str "float64")
                  (numDimensions := .int 1) with
                | error er => exact ⟨er, rfl⟩
                | ok a =>
                  rw [array1_ok] at h
                  obtain ⟨h1, h2, -⟩ := h
                  cases h1
                  exact absurd h2 hq
              obtain ⟨er, hdet⟩ := hdet
              exact ⟨er, bind_err _ _ _ _ er hdet⟩
            · rintro ⟨t', l', d', -, -, -, -, g1, g2⟩
              rw [hd] at g1
              cases g1
              exact hq g2

/-! ## C42 -/

/-- **C42** partial: If `add_gradients` raises, nothing but the list of gradients can change, and all
old gradients are still there, unchanged and first.  If it raises because of the times or the slopes,
nothing changes.  Missing: new gradients can have been appended (`C42_false`). -/
theorem C42_partial (times lc errors transmissions : PyVal K) (ht : Whole times) (hl : Whole lc)
    (he : Whole errors) (hr : Whole transmissions) (s s' : Shallot K) (e : Err)
    (h : Shallot.addGradients times lc errors transmissions s = (.error e, s')) :
    (s' = s ∨ ∃ gs, s' = { s with gradients := some (s.gradients.getD [] ++ gs) }) ∧
    ((¬ ∃ t l, Floats times t ∧ Floats lc l ∧ (∀ x ∈ l.data, ¬ Less x (.fin 0)) ∧
      t.shape = l.shape) → s' = s) := by
  rcases addGradients_cases times lc errors transmissions ht hl he hr s with ⟨-, h'⟩ |
    ⟨-, ⟨er, h'⟩, -⟩ | ⟨-, t, l, d, f1, f2, f3, f4, -, ⟨e', r, scale, -, -, -, -, -, -, h'⟩ |
      ⟨er, gs, -, h', -⟩⟩
  · rw [h'] at h; cases h
  · rw [h'] at h
    cases h
    exact ⟨Or.inl rfl, fun _ => rfl⟩
  · rw [h'] at h; cases h
  · rw [h'] at h
    cases h
    exact ⟨Or.inr ⟨gs, rfl⟩, fun hno => absurd ⟨t, l, f1, f2, f3, f4⟩ hno⟩

/-- **C42 is false of the code** On every grid that has its eclipse parameters, valid times and
slopes with something that is no array as errors: the call raises, and the new gradients have been
appended, none of them with a mask. The fit stays. -/
theorem C42_false (s : Shallot K) (hs : s.ready = true) (d : PyVal K) (hd : Duration s d)
    (t l : NpArr K) (ht : Floats (.arr t) t) (hl : Floats (.arr l) l) (hw : Whole (.arr t))
    (hw' : Whole (.arr l))
    (hpos : ∀ x ∈ l.data, ¬ Less x (.fin 0)) (hsh : t.shape = l.shape) (errors : PyVal K)
    (hne : errors ≠ .none) (hna : ∀ a, errors ≠ .arr a) :
    ∃ e gs, gs.length = t.data.length ∧
      Shallot.addGradients (.arr t) (.arr l) errors .none s =
        (.error e, { s with gradients := some (s.gradients.getD [] ++ gs) }) ∧
      ∀ g ∈ gs, g.prop.mask = none ∧ g.measured = none := by
  have hwe : Whole errors := fun a ha => absurd ha (hna a)
  have hwn : Whole (.none : PyVal K) := fun a ha => by cases ha
  rcases addGradients_cases (.arr t) (.arr l) errors .none hw hw' hwe hwn s with ⟨h', -⟩ |
    ⟨-, -, h'⟩ | ⟨-, t', l', d', f1, -, -, -, -, ⟨e', r, scale, g, -⟩ | ⟨er, gs, h1, h', hbl, -⟩⟩
  · rw [hs] at h'; cases h'
  · exact absurd ⟨t, l, d, ht, hl, hpos, hsh, hd⟩ h'
  · have := g.errors.arr
    unfold Shallot.orOnes at this
    rw [if_neg hne] at this
    exact absurd this (hna _)
  · have : t' = t := by have := f1.arr; simpa using this.symm
    subst this
    have hno : ¬ ∃ e, Floats (Shallot.orOnes errors l') e ∧ ∀ x ∈ e.data, ¬ Less x (.fin 0) := by
      rintro ⟨e, h, -⟩
      have := h.arr
      unfold Shallot.orOnes at this
      rw [if_neg hne] at this
      exact hna _ this
    refine ⟨er, gs, h1, h', fun g hg => ?_⟩
    rw [hbl hno] at hg
    obtain ⟨x, -, rfl⟩ := List.mem_map.1 hg
    exact ⟨rfl, rfl⟩

/-! ## C39 -/

/-- **C39** Adding gradients never unmasks an element, whether the call succeeds or raises. -/
theorem C39_never_unmasks (times lc errors transmissions : PyVal K) (ht : Whole times) (hl : Whole lc)
    (he : Whole errors) (hr : Whole transmissions) (s : Shallot K) (i : ℕ) (hi : MaskedAt s i) :
    MaskedAt (Shallot.addGradients times lc errors transmissions s).2 i := by
  have key : ∀ (gs : List (GGrad K)) (f : Option (GProp K)), MaskedAt { s with
      gradients := some (s.gradients.getD [] ++ gs), gradientFit := f } i := by
    intro gs f
    rcases hi with h | h | h | ⟨l, h1, g, h2, h3⟩
    · exact Or.inl h
    · exact Or.inr (Or.inl h)
    · exact Or.inr (Or.inr (Or.inl h))
    · refine Or.inr (Or.inr (Or.inr ⟨_, rfl, g, ?_, h3⟩))
      rw [h1]
      exact List.mem_append_left _ h2
  rcases addGradients_cases times lc errors transmissions ht hl he hr s with ⟨-, h'⟩ |
    ⟨-, ⟨er, h'⟩, -⟩ | ⟨-, t, l, d, -, -, -, -, -, ⟨e', r, scale, -, -, -, -, -, -, h'⟩ |
      ⟨er, gs, -, h', -⟩⟩
  · rw [h']; exact hi
  · rw [h']; exact hi
  · rw [h']; exact key _ _
  · rw [h']; exact key gs s.gradientFit

/-- A list as a numpy array of floats. -/
def Spec.column (l : List (XF K)) : PyVal K := .arr ⟨"float64", [l.length], l⟩

/-- One call of `add_gradients` with these measurements. -/
def Spec.addCall (b : List (Measurement K)) : Meth (Shallot K) Unit :=
  Shallot.addGradients (column (b.map (·.time))) (column (b.map (·.slope)))
    (column (b.map (·.error))) (column (b.map (·.transmission)))

/-- Several calls, one after the other, until one raises. -/
def Spec.addCalls : List (List (Measurement K)) → Meth (Shallot K) Unit
  | [] => pure ()
  | b :: bs => do
    addCall b
    addCalls bs

theorem column_whole (l : List (XF K)) : Whole (column l) := by
  rintro a ⟨⟩
  simp

theorem column_floats (l : List (XF K)) : Floats (column l) ⟨"float64", [l.length], l⟩ :=
  ⟨rfl, rfl, rfl⟩

theorem floats_column {l : List (XF K)} {a : NpArr K} (h : Floats (column l) a) :
    a = ⟨"float64", [l.length], l⟩ := by
  have := h.arr
  unfold column at this
  simpa using this.symm

theorem rowsOf_columns (b : List (Measurement K)) :
    rowsOf (b.map (·.time)) (b.map (·.slope)) (b.map (·.error)) (b.map (·.transmission)) = b := by
  induction b with
  | nil => rfl
  | cons q b ih =>
    unfold rowsOf at ih ⊢
    simp only [List.map_cons, List.zip_cons_cons]
    rw [ih]

/-- The measurement passes the checks of the arrays. -/
structure Spec.Passable (q : Measurement K) : Prop where
  slope : ¬ Less q.slope (.fin 0)
  error : ¬ Less q.error (.fin 0)
  above : ¬ Less q.transmission (.fin 0)
  below : ¬ Less (.fin 1) q.transmission

theorem orOnes_column (l : List (XF K)) (a : NpArr K) : Shallot.orOnes (column l) a = column l := by
  unfold Shallot.orOnes column
  rw [if_neg (by simp)]

/-- **C39** Measurements without errors, or without transmission changes, are measurements whose errors or
transmission changes are all 1: whatever the grid and the other arguments, the call does the same. -/
theorem C39_defaults (times errors transmissions : PyVal K) (a : NpArr K) :
    Shallot.addGradients times (.arr a) .none transmissions =
      Shallot.addGradients times (.arr a) (.arr ⟨a.dtype, a.shape, a.data.map fun _ => .fin 1⟩) transmissions ∧
    Shallot.addGradients times (.arr a) errors .none =
      Shallot.addGradients times (.arr a) errors (.arr ⟨a.dtype, a.shape, a.data.map fun _ => .fin 1⟩) := by
  have key : ∀ l, array (.arr a) (lower := .float (.fin 0)) (dtype := .str "float64") (numDimensions := .int 1) = .ok l →
      Shallot.orOnes .none l = Shallot.orOnes (.arr ⟨a.dtype, a.shape, a.data.map fun _ => .fin 1⟩) l := by
    intro l h
    have hl := ((lower_ok (.arr a) l (.float (.fin 0)) (.fin 0) (by simp) (Or.inr ⟨rfl, .float _⟩)
      (by rw [less_iff]; simp)).1 h).1.arr
    cases hl
    unfold Shallot.orOnes
    rw [if_pos rfl, if_neg (by simp)]
  constructor
  all_goals
    funext s
    unfold Shallot.addGradients
    simp only [Meth.get_bind]
    split_ifs
    · cases array times (dtype := .str "float64") (numDimensions := .int 1) with
      | error er => rfl
      | ok t =>
        simp only [Meth.lift_ok_bind]
        cases h : array (.arr a) (lower := .float (.fin 0)) (dtype := .str "float64") (numDimensions := .int 1) with
        | error er => rfl
        | ok l =>
          simp only [Meth.lift_ok_bind, Shallot.setMeasured, key l h]
    · rfl

/-- One call, on a grid that has its eclipse parameters, succeeds exactly if every measurement can be
used; then it appends one gradient for every measurement. -/
theorem addCall_ok_iff (b : List (Measurement K)) (s s' : Shallot K) (hs : s.ready = true) :
    addCall b s = (.ok (), s') ↔ ∃ d scale, Duration s d ∧ s.orbital = .ok scale ∧
      (∀ q ∈ b, Passable q ∧ (gradientOf s d scale q).1 = .ok ()) ∧
      s' = { s with
        gradients := some (s.gradients.getD [] ++ b.map fun q => (gradientOf s d scale q).2)
        gradientFit := none } := by
  have hlen : ∀ f : Measurement K → XF K, (b.map f).length = b.length := fun f => by simp
  unfold addCall
  rcases addGradients_cases (column (b.map (·.time))) (column (b.map (·.slope)))
    (column (b.map (·.error))) (column (b.map (·.transmission))) (column_whole _) (column_whole _)
    (column_whole _) (column_whole _) s with ⟨h', -⟩ | ⟨-, ⟨er, h'⟩, hno⟩ |
    ⟨-, t, l, d, f1, f2, f3, f4, fd, ⟨e', r, scale, g, ho, -, -, -, hq, h'⟩ | ⟨er, gs, -, h', -, hno⟩⟩
  · rw [hs] at h'; cases h'
  · rw [h']
    constructor
    · intro h; cases h
    · rintro ⟨d, scale, h1, -, h3, -⟩
      refine absurd ⟨_, _, d, column_floats _, column_floats _, ?_, ?_, h1⟩ hno
      · intro x hx
        obtain ⟨q, hq, rfl⟩ := List.mem_map.1 hx
        exact (h3 q hq).1.slope
      · simp
  · rw [h']
    have e1 := floats_column f1
    have e2 := floats_column f2
    have g1 := g.errors
    rw [orOnes_column] at g1
    have e3 := floats_column g1
    have g2 := g.transmissions
    rw [orOnes_column] at g2
    have e4 := floats_column g2
    subst e1 e2 e3 e4
    rw [rowsOf_columns] at hq ⊢
    constructor
    · intro h
      refine ⟨d, scale, fd, ho, ?_, ?_⟩
      · intro q hb
        refine ⟨⟨?_, ?_, ?_, ?_⟩, hq q hb⟩
        · exact g.positive _ (List.mem_map_of_mem hb)
        · exact g.notNegative _ (List.mem_map_of_mem hb)
        · exact (g.fraction _ (List.mem_map_of_mem hb)).1
        · exact (g.fraction _ (List.mem_map_of_mem hb)).2
      · exact (Prod.mk.inj h).2.symm
    · rintro ⟨d', scale', h1, h2, -, h4⟩
      have : d' = d := by
        have := h1.eq.symm.trans fd.eq
        simpa using this
      subst this
      rw [ho] at h2
      cases h2
      rw [h4]
  · rw [h']
    constructor
    · intro h; cases h
    · rintro ⟨d', scale, h1, h2, h3, -⟩
      have : d' = d := by
        have := h1.eq.symm.trans fd.eq
        simpa using this
      subst this
      have e1 := floats_column f1
      have e2 := floats_column f2
      subst e1 e2
      obtain ⟨q, hq, er', hq'⟩ := hno ⟨"float64", [(b.map (·.error)).length], b.map (·.error)⟩
        ⟨"float64", [(b.map (·.transmission)).length], b.map (·.transmission)⟩ scale
        ⟨f1, f2, f3, f4, by rw [orOnes_column]; exact column_floats _, (by
          intro x hx
          obtain ⟨q, hq, rfl⟩ := List.mem_map.1 hx
          exact (h3 q hq).1.error), by simp, by rw [orOnes_column]; exact column_floats _, (by
          intro x hx
          obtain ⟨q, hq, rfl⟩ := List.mem_map.1 hx
          exact ⟨(h3 q hq).1.above, (h3 q hq).1.below⟩), by simp⟩ h2
      rw [rowsOf_columns] at hq
      rw [(h3 q hq).2] at hq'
      cases hq'

theorem addCall_idle (b : List (Measurement K)) (s : Shallot K) (hs : s.ready = false) :
    addCall b s = (.ok (), s) := by
  unfold addCall Shallot.addGradients
  rw [Meth.get_bind, hs]
  rfl

theorem gradientOf_congr {s s' : Shallot K} (h1 : s'.params = s.params) (h2 : s'.shear = s.shear)
    (h3 : s'.fxMap.data = s.fxMap.data) (h4 : s'.fyMap.data = s.fyMap.data) :
    gradientOf s' = gradientOf s := by
  funext d scale q
  unfold gradientOf
  rw [blank_congr h1 h2 h3 h4]

/-- Several successful calls append one gradient for every measurement. -/
theorem addCalls_ok (bs : List (List (Measurement K))) (s s' : Shallot K) (hs : s.ready = true)
    (hne : bs ≠ []) (h : addCalls bs s = (.ok (), s')) : ∃ d scale, Duration s d ∧
      s.orbital = .ok scale ∧ (∀ q ∈ bs.flatten, Passable q ∧ (gradientOf s d scale q).1 = .ok ()) ∧
      s' = { s with
        gradients := some (s.gradients.getD [] ++ bs.flatten.map fun q => (gradientOf s d scale q).2)
        gradientFit := none } := by
  induction bs generalizing s with
  | nil => exact absurd rfl hne
  | cons b bs ih =>
    unfold addCalls at h
    obtain ⟨r, hr⟩ : ∃ r, r = addCall b s := ⟨_, rfl⟩
    obtain ⟨r1, s₁⟩ := r
    cases r1 with
    | error e =>
      rw [bind_err _ _ _ _ e hr.symm] at h
      cases h
    | ok u =>
      cases u
      rw [bind_ok _ _ _ _ () hr.symm] at h
      obtain ⟨d, scale, h1, h2, h3, h4⟩ := (addCall_ok_iff b s s₁ hs).1 hr.symm
      by_cases hb : bs = []
      · subst hb
        unfold addCalls at h
        cases h
        refine ⟨d, scale, h1, h2, ?_, ?_⟩
        · simpa using h3
        · simpa using h4
      · have hr₁ : s₁.ready = true := by rw [h4]; exact hs
        obtain ⟨d', scale', g1, g2, g3, g4⟩ := ih s₁ hr₁ hb h
        have hG : gradientOf s₁ = gradientOf s := gradientOf_congr (by rw [h4]) (by rw [h4]) (by rw [h4]) (by rw [h4])
        have : d' = d := by
          have e1 : s₁.eclipseDuration = s.eclipseDuration := by rw [h4]
          have := (g1.eq.symm.trans e1).trans h1.eq
          simpa using this
        subst this
        have : scale' = scale := by
          have e1 : s₁.orbital = s.orbital := by rw [h4]; rfl
          rw [e1, h2] at g2
          simpa using g2.symm
        subst this
        rw [hG] at g3 g4
        refine ⟨d', scale', h1, h2, ?_, ?_⟩
        · intro q hq
          rw [List.flatten_cons, List.mem_append] at hq
          rcases hq with hq | hq
          · exact h3 q hq
          · exact g3 q hq
        · rw [g4, h4]
          simp

theorem ready_false_calls (bs : List (List (Measurement K))) (s : Shallot K) (hs : s.ready = false) :
    addCalls bs s = (.ok (), s) := by
  induction bs with
  | nil => rfl
  | cons b bs ih =>
    unfold addCalls
    rw [bind_ok _ _ _ _ () (addCall_idle b s hs), ih]

theorem addCalls_sound (bs : List (List (Measurement K))) : Moves (Inv Sound) (addCalls (K := K) bs) := by
  induction bs with
  | nil => exact Moves.pure (Inv.pre _) _
  | cons b bs ih => exact Moves.bind (Inv.pre _) (addGradients_sound _ _ _ _) fun _ => ih

/-- Masks that are equal element by element are equal. -/
theorem mask_ext {m m' : Mask} (h1 : m.shape = m'.shape) (h2 : m.data.length = m'.data.length)
    (h3 : ∀ i : ℕ, m.data[i]? = some true ↔ m'.data[i]? = some true) : m = m' := by
  obtain ⟨s, d⟩ := m
  obtain ⟨s', d'⟩ := m'
  simp only at h1 h2 h3
  subst h1
  congr 1
  apply List.ext_getElem h2
  intro i hi hi'
  have := h3 i
  rw [List.getElem?_eq_getElem hi, List.getElem?_eq_getElem hi'] at this
  simp only [Option.some.injEq] at this
  cases h : d[i] <;> cases h' : d'[i] <;> simp_all

theorem addCalls_of (bs : List (List (Measurement K))) (s : Shallot K) (hs : s.ready = true)
    (d scale : PyVal K) (h1 : Duration s d) (h2 : s.orbital = .ok scale)
    (h3 : ∀ q ∈ bs.flatten, Passable q ∧ (gradientOf s d scale q).1 = .ok ()) :
    ∃ s', addCalls bs s = (.ok (), s') := by
  induction bs generalizing s with
  | nil => exact ⟨s, rfl⟩
  | cons b bs ih =>
    obtain ⟨s₁, hs₁⟩ : ∃ s₁ : Shallot K, s₁ = { s with
        gradients := some (s.gradients.getD [] ++ b.map fun q => (gradientOf s d scale q).2)
        gradientFit := none } := ⟨_, rfl⟩
    have hb : addCall b s = (.ok (), s₁) := (addCall_ok_iff b s s₁ hs).2 ⟨d, scale, h1, h2,
      fun q hq => h3 q (by rw [List.flatten_cons]; exact List.mem_append_left _ hq), hs₁⟩
    have hG : gradientOf s₁ = gradientOf s := gradientOf_congr (by rw [hs₁]) (by rw [hs₁])
      (by rw [hs₁]) (by rw [hs₁])
    obtain ⟨s', h⟩ := ih s₁ (by rw [hs₁]; exact hs) ⟨by rw [hs₁]; exact h1.eq, h1.plain⟩
      (by rw [← h2, hs₁]; rfl) (by
        intro q hq
        rw [hG]
        exact h3 q (by rw [List.flatten_cons]; exact List.mem_append_right _ hq))
    refine ⟨s', ?_⟩
    unfold addCalls
    rw [bind_ok _ _ _ _ () hb, h]

/-- **C39** If one series of calls (not empty) succeeds, so does every other one with the same
measurements, and both give the same gradients in some order. -/
theorem C39_succeeds (s s₁ : Shallot K) (bs bs' : List (List (Measurement K))) (hne : bs ≠ [])
    (hne' : bs' ≠ []) (hp : bs.flatten.Perm bs'.flatten) (h₁ : addCalls bs s = (.ok (), s₁)) :
    ∃ s₂, addCalls bs' s = (.ok (), s₂) ∧
      (s₁.gradients.getD []).Perm (s₂.gradients.getD []) ∧
      s₂ = { s₁ with gradients := s₂.gradients } := by
  cases hr : s.ready with
  | false =>
    rw [ready_false_calls _ _ hr] at h₁
    cases h₁
    exact ⟨s, ready_false_calls _ _ hr, List.Perm.refl _, rfl⟩
  | true =>
    obtain ⟨d, scale, g1, g2, g3, g4⟩ := addCalls_ok bs s s₁ hr hne h₁
    obtain ⟨s₂, h₂⟩ := addCalls_of bs' s hr d scale g1 g2 fun q hq => g3 q (hp.mem_iff.2 hq)
    obtain ⟨d', scale', k1, k2, -, k4⟩ := addCalls_ok bs' s s₂ hr hne' h₂
    have : d' = d := by
      have := k1.eq.symm.trans g1.eq
      simpa using this
    subst this
    rw [g2] at k2
    cases k2
    refine ⟨s₂, h₂, ?_, ?_⟩
    · rw [g4, k4]
      exact List.Perm.append_left _ (hp.map _)
    · rw [g4, k4]

/-- **C39** The same measurements in any order and any split into calls give the same combined mask:
if both series of calls succeed, the masks are equal. -/
theorem C39_order (s s₁ s₂ : Shallot K) (hs : Sound s) (bs bs' : List (List (Measurement K)))
    (hp : bs.flatten.Perm bs'.flatten) (h₁ : addCalls bs s = (.ok (), s₁))
    (h₂ : addCalls bs' s = (.ok (), s₂)) :
    ∃ m, s₁.combinedMask = .ok m ∧ s₂.combinedMask = .ok m := by
  have hs₁ : Sound s₁ := by
    have := addCalls_sound bs s hs
    rwa [h₁] at this
  have hs₂ : Sound s₂ := by
    have := addCalls_sound bs' s hs
    rwa [h₂] at this
  have hpar : s₁.params = s₂.params ∧ ∀ i, MaskedAt s₁ i ↔ MaskedAt s₂ i := by
    cases hr : s.ready with
    | false =>
      rw [ready_false_calls _ _ hr] at h₁ h₂
      cases h₁; cases h₂
      exact ⟨rfl, fun _ => Iff.rfl⟩
    | true =>
      have old : ∀ (c : List (List (Measurement K))) (t : Shallot K), addCalls c s = (.ok (), t) →
          t.params = s.params ∧ (∀ i, MaskedAt t i ↔ MaskedAt s i ∨ ∃ d scale, Duration s d ∧
            s.orbital = .ok scale ∧ ∃ q ∈ c.flatten, Marked (gradientOf s d scale q).2.prop.mask i) := by
        intro c t ht
        by_cases hc : c = []
        · subst hc
          cases ht
          refine ⟨rfl, fun i => ⟨Or.inl, ?_⟩⟩
          rintro (h | ⟨_, _, _, _, q, hq, -⟩)
          · exact h
          · simp at hq
        · obtain ⟨d, scale, g1, g2, g3, g4⟩ := addCalls_ok c s t hr hc ht
          rw [g4]
          refine ⟨rfl, fun i => ⟨?_, ?_⟩⟩
          · rintro (h | h | h | ⟨l, hl, g, hg, h⟩)
            · exact Or.inl (Or.inl h)
            · exact Or.inl (Or.inr (Or.inl h))
            · exact Or.inl (Or.inr (Or.inr (Or.inl h)))
            · cases hl
              rcases List.mem_append.1 hg with hg | hg
              · left
                refine Or.inr (Or.inr (Or.inr ?_))
                cases hgr : s.gradients with
                | none => rw [hgr] at hg; simp at hg
                | some l => rw [hgr] at hg; exact ⟨l, rfl, g, hg, h⟩
              · obtain ⟨q, hq, rfl⟩ := List.mem_map.1 hg
                exact Or.inr ⟨d, scale, g1, g2, q, hq, h⟩
          · rintro (h | ⟨d', scale', k1, k2, q, hq, h⟩)
            · rcases h with h | h | h | ⟨l, h1, g, h2, h3⟩
              · exact Or.inl h
              · exact Or.inr (Or.inl h)
              · exact Or.inr (Or.inr (Or.inl h))
              · refine Or.inr (Or.inr (Or.inr ⟨_, rfl, g, ?_, h3⟩))
                rw [h1]
                exact List.mem_append_left _ h2
            · have : d' = d := by
                have := k1.eq.symm.trans g1.eq
                simpa using this
              subst this
              rw [g2] at k2
              cases k2
              exact Or.inr (Or.inr (Or.inr ⟨_, rfl, _,
                List.mem_append_right _ (List.mem_map.2 ⟨q, hq, rfl⟩), h⟩))
      obtain ⟨a1, a2⟩ := old bs s₁ h₁
      obtain ⟨b1, b2⟩ := old bs' s₂ h₂
      refine ⟨a1.trans b1.symm, fun i => ?_⟩
      rw [a2, b2]
      constructor
      · rintro (h | ⟨d, scale, k1, k2, q, hq, h⟩)
        · exact Or.inl h
        · exact Or.inr ⟨d, scale, k1, k2, q, hp.mem_iff.1 hq, h⟩
      · rintro (h | ⟨d, scale, k1, k2, q, hq, h⟩)
        · exact Or.inl h
        · exact Or.inr ⟨d, scale, k1, k2, q, hp.mem_iff.2 hq, h⟩
  obtain ⟨m₁, c1, c2, c3, c4⟩ := C38_union s₁ hs₁
  obtain ⟨m₂, d1, d2, d3, d4⟩ := C38_union s₂ hs₂
  refine ⟨m₁, c1, ?_⟩
  rw [d1]
  congr 1
  rw [hpar.1] at c2 c3
  exact mask_ext (d2.trans c2.symm) (d3.trans c3.symm) fun i => by rw [d4, c4, hpar.2]

end
end Beyonce
