import Verif.Props.Points
import Verif.Props.Solved
import Verif.Props.Measured

/-!
# Properties C42 and C48, continued: exactly what is left, exactly when
-/

set_option linter.unusedSectionVars false

namespace Beyonce
open Spec

section
variable {K : Type} [Field K] [LinearOrder K] [IsStrictOrderedRing K] [RealFns K]

/-! ## C42 -/

/-- The loop over the measurements, when it raises: the gradients before the first that fails have been measured,
those after it not. -/
theorem measureLoop_exact (scale : PyVal K) (ms : List (XF K × XF K × XF K)) (s : Shallot K)
    (pre gs : List (GGrad K)) (h : s.gradients = some (pre ++ gs)) (hl : gs.length = ms.length)
    (er : Err) (s' : Shallot K) (hm : Shallot.measureLoop scale pre.length ms s = (.error er, s')) :
    ∃ a p b, ms.zip gs = a ++ p :: b ∧ (∀ p ∈ a, (measure scale p.1 p.2).1 = .ok ()) ∧
      (measure scale p.1 p.2).1 = .error er ∧
      s' = { s with gradients := some (pre ++ (a.map (fun p => (measure scale p.1 p.2).2) ++
        (measure scale p.1 p.2).2 :: b.map Prod.snd)) } := by
  induction ms generalizing s pre gs with
  | nil =>
    unfold Shallot.measureLoop at hm
    cases hm
  | cons q ms ih =>
    obtain ⟨g, gs, rfl⟩ : ∃ g gs', gs = g :: gs' := by
      cases gs with
      | nil => simp at hl
      | cons g gs => exact ⟨g, gs, rfl⟩
    obtain ⟨m, e, t⟩ := q
    unfold Shallot.measureLoop at hm
    simp only [Meth.get_bind, h, Option.getD_some] at hm
    rw [if_pos (by simp)] at hm
    have hk : (s.gradients.getD [])[pre.length]? = some g := by rw [h]; simp
    have hon : Shallot.onGradient pre.length (GGrad.determineMask (.npFloat .w64 m) scale (.npFloat .w64 t)
        (.npFloat .w64 e)) s = ((measure scale (m, e, t) g).1,
          { s with gradients := some (pre ++ (measure scale (m, e, t) g).2 :: gs) }) := by
      unfold Shallot.onGradient
      rw [hk]
      simp only [h, Option.getD_some, measure]
      congr 3
      simp
    obtain ⟨r, hr⟩ : ∃ r, r = measure scale (m, e, t) g := ⟨_, rfl⟩
    rw [← hr] at hon
    obtain ⟨r1, r2⟩ := r
    have hlen : gs.length = ms.length := by simpa using hl
    have hsnd : (ms.zip gs).map Prod.snd = gs := List.map_snd_zip hlen.le
    cases r1 with
    | error er' =>
      rw [bind_err _ _ _ _ er' hon] at hm
      cases hm
      refine ⟨[], ((m, e, t), g), ms.zip gs, rfl, by simp, by rw [← hr], ?_⟩
      rw [← hr, hsnd]
      rfl
    | ok u =>
      cases u
      rw [bind_ok _ _ _ _ () hon] at hm
      have hm' : Shallot.measureLoop scale (pre ++ [r2]).length ms
          { s with gradients := some (pre ++ r2 :: gs) } = (.error er, s') := by
        simpa using hm
      obtain ⟨a, p, b, h1, h2, h3, h4⟩ := ih { s with gradients := some (pre ++ r2 :: gs) } (pre ++ [r2]) gs
        (by simp) hlen hm'
      refine ⟨((m, e, t), g) :: a, p, b, by rw [List.zip_cons_cons, h1]; rfl, ?_, h3, ?_⟩
      · intro p' hp'
        rcases List.mem_cons.1 hp' with rfl | hp'
        · rw [← hr]
        · exact h2 p' hp'
      · rw [h4, List.map_cons, ← hr]
        simp

/-- The same for the method around it. -/
theorem setMeasured_exact (l : NpArr K) (errors transmissions : PyVal K) (s : Shallot K)
    (pre gs : List (GGrad K)) (hg : s.gradients = some (pre ++ gs)) (hlen : gs.length = l.data.length)
    (hl : Whole (.arr l)) (he : Whole errors) (ht : Whole transmissions) (er : Err) (s' : Shallot K)
    (hm : Shallot.setMeasured l errors transmissions s = (.error er, s')) :
    (s' = s ∧ ¬ ∃ e r scale, Floats (Shallot.orOnes errors l) e ∧ (∀ x ∈ e.data, ¬ Less x (.fin 0)) ∧
      l.shape = e.shape ∧ Floats (Shallot.orOnes transmissions l) r ∧
      (∀ x ∈ r.data, ¬ Less x (.fin 0) ∧ ¬ Less (.fin 1) x) ∧ l.shape = r.shape ∧ s.orbital = .ok scale) ∨
    ∃ e r scale, Floats (Shallot.orOnes errors l) e ∧ (∀ x ∈ e.data, ¬ Less x (.fin 0)) ∧
      l.shape = e.shape ∧ Floats (Shallot.orOnes transmissions l) r ∧
      (∀ x ∈ r.data, ¬ Less x (.fin 0) ∧ ¬ Less (.fin 1) x) ∧ l.shape = r.shape ∧ s.orbital = .ok scale ∧
      ∃ a p b, ((l.data.map XF.abs).zip (e.data.zip r.data)).zip gs = a ++ p :: b ∧
        (∀ p ∈ a, (measure scale p.1 p.2).1 = .ok ()) ∧ (measure scale p.1 p.2).1 = .error er ∧
        s' = { s with gradients := some (pre ++ (a.map (fun p => (measure scale p.1 p.2).2) ++
          (measure scale p.1 p.2).2 :: b.map Prod.snd)) } := by
  have e0 : (.fin ((0 : ℤ) : K) : XF K) = .fin 0 := by simp
  have e1 : (.fin ((1 : ℤ) : K) : XF K) = .fin 1 := by simp
  have hE := fun a => lower_ok (Shallot.orOnes errors l) a (.float (.fin 0)) (.fin 0) (by simp)
    (Or.inr ⟨rfl, .float _⟩) (by rw [less_iff]; simp)
  have hT := fun a => both_ok (Shallot.orOnes transmissions l) a (.int 0) (.int 1) (.fin 0) (.fin 1)
    (by simp) (by simp) (by rw [← e0]; exact int_isNumber 0) (by rw [← e1]; exact int_isNumber 1)
    (by rw [less_iff]; simp)
  unfold Shallot.setMeasured at hm
  cases h1 : array (Shallot.orOnes errors l) (lower := .float (.fin 0)) (dtype := .str "float64")
    (numDimensions := .int 1) with
  | error er' =>
    left
    rw [h1, Meth.lift_error_bind] at hm
    cases hm
    refine ⟨rfl, ?_⟩
    rintro ⟨e, r, scale, h2, h3, -⟩
    rw [(hE e).2 ⟨h2, h3⟩] at h1
    cases h1
  | ok e =>
    obtain ⟨f1, f2⟩ := (hE e).1 h1
    rw [h1, Meth.lift_ok_bind] at hm
    cases h2 : array (Shallot.orOnes transmissions l) (lower := .int 0) (upper := .int 1)
      (dtype := .str "float64") (numDimensions := .int 1) with
    | error er' =>
      left
      rw [h2, Meth.lift_error_bind] at hm
      cases hm
      refine ⟨rfl, ?_⟩
      rintro ⟨e, r, scale, -, -, -, h3, h4, -⟩
      rw [(hT r).2 ⟨h3, h4⟩] at h2
      cases h2
    | ok r =>
      obtain ⟨f3, f4⟩ := (hT r).1 h2
      rw [h2, Meth.lift_ok_bind] at hm
      cases h3 : sameShapeArrays [.arr l, .arr e, .arr r] 3 with
      | error er' =>
        left
        rw [h3, Meth.lift_error_bind] at hm
        cases hm
        refine ⟨rfl, ?_⟩
        rintro ⟨e', r', scale, g1, -, g2, g3, -, g4, -⟩
        have q1 : e' = e := by have := g1.arr.symm.trans f1.arr; simpa using this
        have q2 : r' = r := by have := g3.arr.symm.trans f3.arr; simpa using this
        subst q1 q2
        rw [(sameShape3_ok _ _ _).2 ⟨g2, g4⟩] at h3
        cases h3
      | ok u =>
        obtain ⟨f5, f6⟩ := (sameShape3_ok _ _ _).1 h3
        rw [h3, Meth.lift_ok_bind] at hm
        simp only [Meth.get_bind] at hm
        cases h4 : s.orbital with
        | error er' =>
          left
          rw [h4, Meth.lift_error_bind] at hm
          cases hm
          refine ⟨rfl, ?_⟩
          rintro ⟨_, _, _, _, _, _, _, _, _, ⟨⟩⟩
        | ok scale =>
          right
          rw [h4, Meth.lift_ok_bind] at hm
          have l1 : l.data.length = e.data.length := whole_same hl (orOnes_whole he hl) rfl f1.arr f5
          have l2 : l.data.length = r.data.length := whole_same hl (orOnes_whole ht hl) rfl f3.arr f6
          have hgo : Shallot.measureLoop scale pre.length ((l.data.map XF.abs).zip (e.data.zip r.data)) s =
              (.error er, s') := by
            rw [← hm]
            unfold Shallot.sliceStart
            rw [hg]
            by_cases h0 : l.data.length = 0
            · rw [List.length_eq_zero_iff.1 h0]
              rfl
            · rw [if_neg h0]
              simp only [Option.getD_some, List.length_append]
              rw [show pre.length + gs.length - l.data.length = pre.length by omega]
          exact ⟨e, r, scale, f1, f2, f5, f3, f4, f6, rfl,
            measureLoop_exact scale _ s pre gs hg (by simp [← l1, ← l2, hlen]) er s' hgo⟩

/-- **C42 exactly**: what a call of `add_gradients` that raises has left behind.  Either nothing has changed, and the
times, the slopes or the duration were not acceptable; or they were, but the errors, the transmission changes or the
scale were not, and all new gradients have been appended without measurement and mask; or everything was, and the
new gradients before the first that was too steep are complete, and the others are not. -/
theorem C42_exact (times lc errors transmissions : PyVal K) (ht : Whole times) (hl : Whole lc)
    (he : Whole errors) (hr : Whole transmissions) (s s' : Shallot K) (er : Err)
    (h : Shallot.addGradients times lc errors transmissions s = (.error er, s')) :
    (s' = s ∧ ¬ ∃ t l d, Floats times t ∧ Floats lc l ∧ (∀ x ∈ l.data, ¬ Less x (.fin 0)) ∧
      t.shape = l.shape ∧ Duration s d) ∨
    (∃ t l d, Floats times t ∧ Floats lc l ∧ (∀ x ∈ l.data, ¬ Less x (.fin 0)) ∧ t.shape = l.shape ∧ Duration s d ∧
      (¬ ∃ e r scale, Arguments times lc errors transmissions t l e r ∧ s.orbital = .ok scale) ∧
      s' = { s with gradients := some (s.gradients.getD [] ++ t.data.map fun x => blank s (x.neg.div d.num)) }) ∨
    ∃ t l d e r scale, Arguments times lc errors transmissions t l e r ∧ Duration s d ∧ s.orbital = .ok scale ∧
      ∃ a q b, rowsOf t.data l.data e.data r.data = a ++ q :: b ∧
        (∀ p ∈ a, (gradientOf s d scale p).1 = .ok ()) ∧ (gradientOf s d scale q).1 = .error er ∧
        s' = { s with gradients := some (s.gradients.getD [] ++ (a.map (fun p => (gradientOf s d scale p).2) ++
          (gradientOf s d scale q).2 :: b.map fun p => blank s (p.time.neg.div d.num))) } := by
  have hT : ∀ a, array times (dtype := .str "float64") (numDimensions := .int 1) = .ok a ↔ Floats times a := by
    intro a
    rw [array1_ok]
    exact ⟨fun ⟨h1, h2, h3⟩ => ⟨h1, h2, h3⟩, fun ⟨h1, h2, h3⟩ => ⟨h1, h2, h3⟩⟩
  have hL := fun a => lower_ok lc a (.float (.fin 0)) (.fin 0) (by simp) (Or.inr ⟨rfl, .float _⟩)
    (by rw [less_iff]; simp)
  rcases addGradients_cases times lc errors transmissions ht hl he hr s with ⟨-, h'⟩ | ⟨-, ⟨er', h'⟩, hno⟩ |
    ⟨hready, t, l, d, f1, f2, f3, f4, fd, -⟩
  · rw [h'] at h; cases h
  · rw [h'] at h
    cases h
    exact Or.inl ⟨rfl, hno⟩
  · right
    obtain ⟨ps, hps⟩ : ∃ ps, ps = t.data.map fun x => x.neg.div d.num := ⟨_, rfl⟩
    obtain ⟨s₁, hs₁⟩ : ∃ s₁ : Shallot K, s₁ = { s with
      gradients := some (s.gradients.getD [] ++ ps.map (blank s)) } := ⟨_, rfl⟩
    have hdet : Shallot.determineDiskGradients (Shallot.positionsOf t d) s = (.ok (), s₁) := by
      unfold Shallot.determineDiskGradients
      have : array (.arr (Shallot.positionsOf t d)) (dtype := .str "float64")
          (numDimensions := .int 1) = .ok (Shallot.positionsOf t d) := by
        rw [array1_ok]
        exact ⟨rfl, fd.plain, f1.flat⟩
      rw [this, Meth.lift_ok_bind, Meth.modify_bind,
        appendGradients_eq _ _ (s.gradients.getD []) rfl, hs₁, hps]
      have hb : blank { s with gradients := some (s.gradients.getD []) } = blank s :=
        funext fun y => blank_congr rfl rfl rfl rfl y
      rw [hb]
      rfl
    have hsame : sameShapeArrays [.arr t, .arr l] 2 = .ok () := by
      have := (C04_sameShapeArrays_iff [.arr t, .arr l] 2).2 ⟨by simp, rfl, [t, l], rfl, by
        intro a ha b hb
        simp only [List.mem_cons, List.not_mem_nil, or_false] at ha hb
        rcases ha with rfl | rfl <;> rcases hb with rfl | rfl <;> simp [f4]⟩
      exact this
    unfold Shallot.addGradients at h
    rw [Meth.get_bind, if_pos hready, (hT t).2 f1, Meth.lift_ok_bind, (hL l).2 ⟨f2, f3⟩, Meth.lift_ok_bind, hsame,
      Meth.lift_ok_bind, fd.eq] at h
    simp only [needNumber, Meth.lift_ok_bind] at h
    rw [bind_ok _ _ _ _ () hdet] at h
    have ltl : t.data.length = l.data.length := whole_same ht hl f1.arr f2.arr f4
    have hpl : (ps.map (blank s)).length = l.data.length := by simp [hps, ltl]
    have hfl : Whole (.arr l : PyVal K) := by
      rintro a ⟨⟩
      exact hl l f2.arr
    have horb : s₁.orbital = s.orbital := by rw [hs₁]; rfl
    have herr : Shallot.setMeasured l errors transmissions s₁ = (.error er, s') := by
      cases hc : Shallot.setMeasured l errors transmissions s₁ with
      | mk r s₂ =>
        cases r with
        | error e' =>
          rw [bind_err _ _ _ _ e' hc] at h
          exact h
        | ok u =>
          rw [bind_ok _ _ _ _ u hc] at h
          cases h
    rcases setMeasured_exact l errors transmissions s₁ (s.gradients.getD []) (ps.map (blank s)) (by rw [hs₁]) hpl hfl
      he hr er s' herr with ⟨h1, h2⟩ | ⟨e, r, scale, k1, k2, k3, k4, k5, k6, k7, a, p, b, z, z1, z2, z3⟩
    · left
      refine ⟨t, l, d, f1, f2, f3, f4, fd, ?_, ?_⟩
      · rintro ⟨e, r, scale, ha, ho⟩
        exact h2 ⟨e, r, scale, ha.errors, ha.notNegative, ha.shape', ha.transmissions, ha.fraction, ha.shape'',
          horb.trans ho⟩
      · rw [h1, hs₁, hps, List.map_map]
        rfl
    · right
      have hrow : ((l.data.map XF.abs).zip (e.data.zip r.data)).zip (ps.map (blank s)) =
          (rowsOf t.data l.data e.data r.data).map fun q =>
            ((q.slope.abs, q.error, q.transmission), blank s (q.time.neg.div d.num)) := by
        subst hps
        unfold rowsOf
        apply List.ext_getElem?
        intro i
        simp only [List.getElem?_map, List.zip, List.getElem?_zipWith]
        cases t.data[i]? <;> cases l.data[i]? <;> cases e.data[i]? <;> cases r.data[i]? <;> rfl
      rw [hrow] at z
      obtain ⟨a', c, hc, rfl, hc'⟩ := List.map_eq_append_iff.1 z
      obtain ⟨q, b', rfl, rfl, rfl⟩ := List.map_eq_cons_iff.1 hc'
      refine ⟨t, l, d, e, r, scale, ⟨f1, f2, f3, f4, k1, k2, k3, k4, k5, k6⟩, fd, horb.symm.trans k7, a', q, b', hc,
        fun p hp => z1 _ (List.mem_map_of_mem hp), z2, ?_⟩
      rw [z3, hs₁, List.map_map, List.map_map]
      rfl

/-- A gradient fails exactly if the scale is negative, or the scaled slope is above 1. -/
theorem C42_fails_iff (s : Shallot K) (d scale : PyVal K) (q : Measurement K)
    (he : ¬ Less q.error (.fin 0)) (h0 : ¬ Less q.transmission (.fin 0)) (h1 : ¬ Less (.fin 1) q.transmission) :
    (gradientOf s d scale q).1 = .ok () ↔ NotNegative scale ∧
      ¬ Less (.fin 1) (q.slope.abs.mul (scale.num.mul ((XF.fin 1).div q.transmission))) := by
  have n1 : NotNegative (.npFloat .w64 q.slope.abs : PyVal K) := by
    refine ⟨_, Or.inr ⟨rfl, .npFloat _ _⟩, ?_⟩
    rw [less_iff]
    cases q.slope <;> simp [XF.abs, XF.lt]
  have n2 : Fraction (orOne (.npFloat .w64 q.transmission : PyVal K)) :=
    ⟨_, Or.inr ⟨rfl, .npFloat _ _⟩, h0, h1⟩
  have n3 : NotNegative (orOne (.npFloat .w64 q.error : PyVal K)) :=
    ⟨_, Or.inr ⟨rfl, .npFloat _ _⟩, he⟩
  have n4 : oneOver (orOne (.npFloat .w64 q.transmission : PyVal K)) = .ok ((XF.fin 1).div q.transmission) := rfl
  unfold gradientOf measure
  rcases determineMask_cases (.npFloat .w64 q.slope.abs) scale (.npFloat .w64 q.transmission)
    (.npFloat .w64 q.error) (blank s (q.time.neg.div d.num)) with ⟨k, -⟩ | ⟨-, k, e, h⟩ | ⟨-, -, k, -⟩ |
      ⟨-, -, -, k, -⟩ | ⟨-, k, -, -, ⟨e, h, -⟩ | ⟨c, hc, ⟨h, h'⟩ | ⟨h, h'⟩⟩⟩
  · exact absurd n1 k
  · simp only [h]
    exact ⟨fun h => (by cases h), fun h => absurd h.1 k⟩
  · exact absurd n2 k
  · exact absurd n3 k
  · rw [n4] at h; cases h
  · rw [n4] at hc
    cases hc
    simp only [h']
    refine ⟨fun h => (by cases h), fun hn => absurd ?_ hn.2⟩
    rw [less_iff]
    exact h
  · rw [n4] at hc
    cases hc
    simp only [h', true_iff]
    refine ⟨k, ?_⟩
    rw [less_iff]
    exact fun hc => by
      have := h.symm.trans hc
      cases this

/-- A new gradient has a mask exactly if it did not fail; without one it is masked nowhere. -/
theorem C42_masks (s : Shallot K) (d scale : PyVal K) (q : Measurement K) :
    (gradientOf s d scale q).2.prop.mask = none ↔ (gradientOf s d scale q).1 ≠ .ok () := by
  have hb : (blank s (q.time.neg.div d.num)).prop.mask = none := rfl
  obtain ⟨c, hc⟩ : ∃ c, c = gradientOf s d scale q := ⟨_, rfl⟩
  rw [← hc]
  unfold gradientOf measure at hc
  obtain ⟨c1, c2⟩ := c
  cases c1 with
  | error e =>
    have := (C36_exact _ _ _ _ _ _ _ hc.symm).1
    constructor
    · rintro - ⟨⟩
    · intro _
      rw [this]
      exact hb
  | ok u =>
    cases u
    simp only [ne_eq, not_true, iff_false]
    rcases determineMask_cases (.npFloat .w64 q.slope.abs) scale (.npFloat .w64 q.transmission)
      (.npFloat .w64 q.error) (blank s (q.time.neg.div d.num)) with ⟨-, e, h⟩ | ⟨-, -, e, h⟩ | ⟨-, -, -, e, h⟩ |
        ⟨-, -, -, -, e, h⟩ | ⟨-, -, -, -, ⟨e, -, h⟩ | ⟨c, -, ⟨-, h⟩ | ⟨-, h⟩⟩⟩
    all_goals rw [h] at hc
    all_goals cases hc
    simp

end

section
variable {K : Type} [Field K] [LinearOrder K] [IsStrictOrderedRing K] [RealFns K] [FloorRing K]

/-! ## C48 -/

/-- **C48 exactly**, for integer indices: a `ValueError` if one of them is below 0 or above the number of points of its
axis, otherwise an `IndexError` if one of them is equal to that number, otherwise the data. -/
theorem C48_exact (s : Shallot K) (hs : Sound s) (hd : s.diagnosticMap ≠ none) (m : Bool) (vy vx vr : PyVal K)
    (y x r : ℤ) (iy : PlainIndex vy y) (ix : PlainIndex vx x) (ir : PlainIndex vr r) :
    ((Shallot.gridPoint vy vx vr (.bool m) s).1 = .error .valueError ↔
      (y < 0 ∨ (s.params.gridShape.1 : ℤ) < y) ∨ (x < 0 ∨ (s.params.gridShape.2.1 : ℤ) < x) ∨
      (r < 0 ∨ (s.params.gridShape.2.2 : ℤ) < r)) ∧
    ((Shallot.gridPoint vy vx vr (.bool m) s).1 = .error .indexError ↔
      (0 ≤ y ∧ y ≤ s.params.gridShape.1 ∧ 0 ≤ x ∧ x ≤ s.params.gridShape.2.1 ∧ 0 ≤ r ∧ r ≤ s.params.gridShape.2.2) ∧
      (y = s.params.gridShape.1 ∨ x = s.params.gridShape.2.1 ∨ r = s.params.gridShape.2.2)) ∧
    ((∃ pt, (Shallot.gridPoint vy vx vr (.bool m) s).1 = .ok pt) ↔
      0 ≤ y ∧ y < s.params.gridShape.1 ∧ 0 ≤ x ∧ x < s.params.gridShape.2.1 ∧ 0 ≤ r ∧ r < s.params.gridShape.2.2) := by
  by_cases hout : (y < 0 ∨ (s.params.gridShape.1 : ℤ) < y) ∨ (x < 0 ∨ (s.params.gridShape.2.1 : ℤ) < x) ∨
      (r < 0 ∨ (s.params.gridShape.2.2 : ℤ) < r)
  · rw [C48_outside_partial s (.bool m) vy vx vr y x r iy ix ir hout]
    refine ⟨⟨fun _ => hout, fun _ => rfl⟩, ⟨fun h => (by cases h), fun h => ?_⟩, ⟨fun ⟨_, h⟩ => (by cases h), fun h => ?_⟩⟩
    · exfalso; omega
    · exfalso; omega
  · obtain ⟨y, rfl⟩ := Int.eq_ofNat_of_zero_le (show 0 ≤ y by omega)
    obtain ⟨x, rfl⟩ := Int.eq_ofNat_of_zero_le (show 0 ≤ x by omega)
    obtain ⟨r, rfl⟩ := Int.eq_ofNat_of_zero_le (show 0 ≤ r by omega)
    by_cases hend : y = s.params.gridShape.1 ∨ x = s.params.gridShape.2.1 ∨ r = s.params.gridShape.2.2
    · rw [C48_false s hs m vy vx vr y x r iy ix ir (by omega) (by omega) (by omega) hend]
      refine ⟨⟨fun h => (by cases h), fun h => absurd h hout⟩, ⟨fun _ => ⟨by omega, by omega⟩, fun _ => rfl⟩,
        ⟨fun ⟨_, h⟩ => (by cases h), fun h => ?_⟩⟩
      exfalso; omega
    · obtain ⟨pt, s', h, -⟩ := C74_point s hs hd m y x r vy vx vr iy ix ir (by omega) (by omega) (by omega)
      rw [h]
      refine ⟨⟨fun h => (by cases h), fun h => absurd h hout⟩, ⟨fun h => (by cases h), fun h => ?_⟩,
        ⟨fun _ => by omega, fun _ => ⟨pt, rfl⟩⟩⟩
      exfalso; omega

end

/-- The hypotheses of `C42_exact` and `C42_fails_iff` are met by a call with three measurements, the second too steep:
of the three gradients that it leaves only the first has a mask. -/
example : ∃ (s s' : Shallot ℝ) (slope : ℝ) (er : Err), Sound s ∧ s.gradients = none ∧
    Shallot.addGradients (column [.fin 0, .fin 0, .fin 0]) (column [.fin 0, .fin slope, .fin 0]) .none .none s =
      (.error er, s') ∧
    ∃ g₁ g₂ g₃, s'.gradients = some [g₁, g₂, g₃] ∧ g₁.prop.mask ≠ none ∧ g₂.prop.mask = none ∧ g₃.prop.mask = none := by
  obtain ⟨-, s, -, -, hs, -, hr, hd, ⟨k, hk, hk2, ho⟩, -, -, hg, -⟩ := throwAway_ready
  have hk' : 0 < 2 / k := by positivity
  have w1 : Whole (column [.fin 0, .fin 0, .fin 0] : PyVal ℝ) := by rintro a ⟨⟩; rfl
  have w2 : Whole (column [.fin 0, .fin (2 / k), .fin 0] : PyVal ℝ) := by rintro a ⟨⟩; rfl
  have w3 : Whole (.none : PyVal ℝ) := by rintro a ⟨⟩
  have one : ¬ Less (XF.fin (1 : ℝ)) (.fin 0) := by rw [less_iff]; simp
  have one' : ¬ Less (XF.fin (1 : ℝ)) (.fin 1) := by rw [less_iff]; simp
  have hA : Arguments (column [.fin 0, .fin 0, .fin 0] : PyVal ℝ) (column [.fin 0, .fin (2 / k), .fin 0]) .none .none
      ⟨"float64", [3], [.fin 0, .fin 0, .fin 0]⟩ ⟨"float64", [3], [.fin 0, .fin (2 / k), .fin 0]⟩
      ⟨"float64", [3], [.fin 1, .fin 1, .fin 1]⟩ ⟨"float64", [3], [.fin 1, .fin 1, .fin 1]⟩ := by
    refine ⟨⟨rfl, rfl, rfl⟩, ⟨rfl, rfl, rfl⟩, ?_, rfl, ⟨rfl, rfl, rfl⟩, ?_, rfl, ⟨rfl, rfl, rfl⟩, ?_, rfl⟩
    · simp [less_iff, hk'.le]
    · simpa using one
    · simpa using ⟨one, one'⟩
  have hsteep : (gradientOf s (.int 1) (.float (.fin k)) ⟨.fin 0, .fin (2 / k), .fin 1, .fin 1⟩).1 ≠ .ok () := by
    rw [ne_eq, C42_fails_iff _ _ _ _ one one one']
    rintro ⟨-, h⟩
    refine h ?_
    rw [less_iff, XF.abs_fin, abs_of_pos hk']
    have : (XF.fin (1 : ℝ)).div (.fin 1) = .fin 1 := by simp [XF.div]
    simp only [PyVal.num]
    rw [this, XF.mul_fin, XF.mul_fin]
    simp only [XF.lt, decide_eq_true_eq]
    rw [mul_one, div_mul_cancel₀ _ hk.ne']
    norm_num
  have hflat : (gradientOf s (.int 1) (.float (.fin k)) ⟨.fin 0, .fin 0, .fin 1, .fin 1⟩).1 = .ok () :=
    (slopeOf_ok s (.int 1) k 0 hk hk2 le_rfl (by norm_num)).2
  obtain ⟨er, s', hraise⟩ : ∃ er s', Shallot.addGradients (column [.fin 0, .fin 0, .fin 0])
      (column [.fin 0, .fin (2 / k), .fin 0]) .none .none s = (.error er, s') := by
    rcases addGradients_cases _ _ _ _ w1 w2 w3 w3 s with ⟨h, -⟩ | ⟨-, -, h⟩ | ⟨-, t, l, d, f1, f2, -, -, fd,
      ⟨e, r, scale, g, go, -, -, -, h, -⟩ | ⟨er, gs, -, h, -⟩⟩
    · rw [hr] at h; cases h
    · exact absurd ⟨_, _, _, hA.times, hA.slopes, hA.positive, hA.shape, hd⟩ h
    · exfalso
      have e1 : t = _ := PyVal.arr.inj (f1.arr.symm.trans hA.times.arr)
      have e2 : l = _ := PyVal.arr.inj (f2.arr.symm.trans hA.slopes.arr)
      subst e1 e2
      have e3 : e = _ := PyVal.arr.inj (g.errors.arr.symm.trans hA.errors.arr)
      have e4 : r = _ := PyVal.arr.inj (g.transmissions.arr.symm.trans hA.transmissions.arr)
      have e5 : d = _ := Option.some.inj (fd.eq.symm.trans hd.eq)
      have e6 : scale = _ := Except.ok.inj (go.symm.trans ho)
      subst e3 e4 e5 e6
      exact hsteep (h _ (by simp [rowsOf]))
    · exact ⟨_, _, h⟩
  refine ⟨s, s', 2 / k, er, hs, hg, hraise, ?_⟩
  rcases C42_exact _ _ _ _ w1 w2 w3 w3 s s' er hraise with ⟨-, h⟩ | ⟨t, l, d, f1, f2, -, -, -, h, -⟩ |
    ⟨t, l, d, e, r, scale, g, fd, go, a, q, b, hrows, ha, hq, h⟩
  · exact absurd ⟨_, _, _, hA.times, hA.slopes, hA.positive, hA.shape, hd⟩ h
  · exfalso
    have e1 : t = _ := PyVal.arr.inj (f1.arr.symm.trans hA.times.arr)
    have e2 : l = _ := PyVal.arr.inj (f2.arr.symm.trans hA.slopes.arr)
    subst e1 e2
    exact h ⟨_, _, _, hA, ho⟩
  · have e1 : t = _ := PyVal.arr.inj (g.times.arr.symm.trans hA.times.arr)
    have e2 : l = _ := PyVal.arr.inj (g.slopes.arr.symm.trans hA.slopes.arr)
    subst e1 e2
    have e3 : e = _ := PyVal.arr.inj (g.errors.arr.symm.trans hA.errors.arr)
    have e4 : r = _ := PyVal.arr.inj (g.transmissions.arr.symm.trans hA.transmissions.arr)
    have e5 : d = _ := Option.some.inj (fd.eq.symm.trans hd.eq)
    have e6 : scale = _ := Except.ok.inj (go.symm.trans ho)
    subst e3 e4 e5 e6
    have hrows' : [⟨.fin 0, .fin 0, .fin 1, .fin 1⟩, ⟨.fin 0, .fin (2 / k), .fin 1, .fin 1⟩,
        (⟨.fin 0, .fin 0, .fin 1, .fin 1⟩ : Measurement ℝ)] = a ++ q :: b := hrows
    match a, ha, hrows', h with
    | [], _, hr', h =>
      exfalso
      simp only [List.nil_append, List.cons.injEq] at hr'
      rw [← hr'.1, hflat] at hq
      cases hq
    | [p], ha, hr', h =>
      simp only [List.cons_append, List.nil_append, List.cons.injEq] at hr'
      obtain ⟨rfl, rfl, rfl⟩ := hr'
      rw [hg] at h
      refine ⟨_, _, _, by rw [h]; rfl, ?_, ?_, rfl⟩
      · rw [ne_eq, C42_masks, not_not]
        exact hflat
      · rw [C42_masks]
        exact hsteep
    | p :: p' :: a, ha, hr', _ =>
      exfalso
      simp only [List.cons_append, List.cons.injEq] at hr'
      have := ha p' (by simp)
      rw [← hr'.2.1] at this
      exact hsteep this

/-- The hypotheses of `C48_exact` are met by a grid of 3 by 3 by 3 points: 2 is an index, 3 and 4 are not. -/
example : ∃ s : Shallot ℝ, Sound s ∧
    (∃ pt, (Shallot.gridPoint (.int 2) (.int 2) (.int 2) (.bool true) s).1 = .ok pt) ∧
    (Shallot.gridPoint (.int 2) (.int 3) (.int 2) (.bool true) s).1 = .error .indexError ∧
    (Shallot.gridPoint (.int 2) (.int 3) (.int 4) (.bool true) s).1 = .error .valueError := by
  obtain ⟨-, s, g, k, -, -, -, -, -, -, -, hs, hgs, hdm, -⟩ :=
    throwAway_probe 0 0 1 le_rfl (by norm_num) zero_le_one
  refine ⟨s, hs, ?_, ?_, ?_⟩
  · rw [(C48_exact s hs hdm true _ _ _ 2 2 2 (.int _) (.int _) (.int _)).2.2, hgs]
    norm_num
  · rw [(C48_exact s hs hdm true _ _ _ 2 3 2 (.int _) (.int _) (.int _)).2.1, hgs]
    norm_num
  · rw [(C48_exact s hs hdm true _ _ _ 2 3 4 (.int _) (.int _) (.int _)).1, hgs]
    norm_num

end Beyonce
