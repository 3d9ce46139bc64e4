import Verif.Props.Viewer

/-!
# Property C140: what a viewer shows does not depend on the way to the slice
-/

set_option linter.unusedSectionVars false

namespace Beyonce
open Spec
variable {K : Type} [Field K] [LinearOrder K]

theorem table_unique {α : Type} (f : ℕ → ℕ → α) (m n : ℕ) (x y : List α) (hx : x.length = m * n)
    (hy : y.length = m * n) (h : ∀ j k, j < m → k < n → x[j * n + k]? = some (f j k))
    (h' : ∀ j k, j < m → k < n → y[j * n + k]? = some (f j k)) : x = y := by
  apply List.ext_getElem?
  intro p
  by_cases hp : p < m * n
  · have hn : 0 < n := by
      rcases Nat.eq_zero_or_pos n with rfl | hn
      · simp at hp
      · exact hn
    have hj : p / n < m := Nat.div_lt_of_lt_mul (by rwa [Nat.mul_comm] at hp)
    have hk := Nat.mod_lt p hn
    have e : p / n * n + p % n = p := Nat.div_add_mod' p n
    have h1 := h _ _ hj hk
    have h2 := h' _ _ hj hk
    rw [e] at h1 h2
    rw [h1, h2]
  · rw [List.getElem?_eq_none (by omega), List.getElem?_eq_none (by omega)]

/-- There is one image of a slice. -/
theorem showsSlice_unique (d : Nd K) (axis i : ℕ) (x y : List (XF K)) (hx : ShowsSlice d axis i x)
    (hy : ShowsSlice d axis i y) : x = y := by
  obtain ⟨a, b, c, hs, h⟩ := hx
  obtain ⟨a', b', c', hs', h'⟩ := hy
  rw [hs] at hs'
  simp only [List.cons.injEq, and_true] at hs'
  obtain ⟨rfl, rfl, rfl⟩ := hs'
  rcases h with ⟨rfl, -, h1, h2⟩ | ⟨rfl, -, h1, h2⟩ | ⟨rfl, -, h1, h2⟩ <;>
  rcases h' with ⟨e, -, h3, h4⟩ | ⟨e, -, h3, h4⟩ | ⟨e, -, h3, h4⟩ <;>
  first
    | exact absurd e (by decide)
    | exact table_unique _ _ _ x y h1 h3 h2 h4

/-- Two viewers that show the same, apart from marks. -/
structure Spec.ShowSame (v w : Viewer K) : Prop where
  cube : SameCube v w
  index : w.index = v.index
  image : w.image = v.image
  title : w.title = v.title

/-- What is shown is determined by the index. -/
theorem showSame_of_index (v w : Viewer K) (hv : InSync v) (hw : InSync w) (hc : SameCube v w)
    (hi : w.index = v.index) : ShowSame v w := by
  refine ⟨hc, hi, ?_, ?_⟩
  · have h1 := hw.image
    rw [hc.data, hc.axis, hi] at h1
    exact showsSlice_unique _ _ _ _ _ h1 hv.image
  · have h1 := hw.value
    have h2 := hw.horizontal
    have h3 := hw.vertical
    rw [hc.values, hi, hv.value, Option.some.injEq] at h1
    rw [hc.axis, hc.values, hi, ← hv.horizontal] at h2
    rw [hc.axis, hc.values, hi, ← hv.vertical] at h3
    refine Prod.ext h1.symm ?_
    generalize w.title.2 = a at h2 h3 ⊢
    generalize v.title.2 = b at h2 h3 ⊢
    rcases a with _ | _ | _ <;> rcases b with _ | _ | _ <;> simp at h2 h3 ⊢

theorem SameCube.symm {v w : Viewer K} (h : SameCube v w) : SameCube w v :=
  ⟨h.axis.symm, h.data.symm, h.values.symm, h.coordinates.symm, h.tolerance.symm, h.frozen.symm⟩

theorem onscroll_lines (v : Viewer K) (hv : Valid v) (hs : InSync v) (hc : v.coordinates = none) (e : String) :
    (Viewer.onscroll e v).2.lines = v.lines := by
  by_cases hf : v.frozen = true
  · rw [(C67_event v hv hs e).2.2.2.2.1 hf]
  · have hsc : Valid { v with index := v.scrolled e } := by
      refine ⟨hv.axis, hv.shape, ?_, ?_, hv.coordinates⟩
      · have := hv.low
        show 0 ≤ v.scrolled e
        unfold Viewer.scrolled
        split_ifs <;> omega
      · have := hv.high
        show v.scrolled e < v.sliceValues.length
        unfold Viewer.scrolled
        split_ifs <;> omega
    obtain ⟨image, value, direction, lines, h, -, -, -, -, h1, -⟩ := update_valid _ hsc
    have hw : Viewer.onscroll e v = Viewer.update { v with index := v.scrolled e } := by
      unfold Viewer.onscroll
      rw [Meth.get_bind, if_neg hf, Meth.bind_apply, Meth.set_apply]
    rw [hw, h]
    exact h1 hc

theorem scrolls_lines (events : List String) (v : Viewer K) (hv : Valid v) (hs : InSync v) (hc : v.coordinates = none) :
    (scrolls events v).lines = v.lines := by
  induction events generalizing v with
  | nil => rfl
  | cons e es ih =>
    obtain ⟨-, h1, h2, h3, -⟩ := C67_event v hv hs e
    rw [show scrolls (e :: es) v = scrolls es (Viewer.onscroll e v).2 from rfl,
      ih _ h1 h2 (by rw [h3.coordinates, hc]), onscroll_lines v hv hs hc]

theorem scrolls_append (es fs : List String) (v : Viewer K) : scrolls (es ++ fs) v = scrolls fs (scrolls es v) := by
  unfold scrolls
  rw [List.foldl_append]

/-- The steps of a sequence of events: "up" is one forward, anything else one back. -/
def Spec.steps (events : List String) : ℤ := (events.map fun e => if e = "up" then (1 : ℤ) else -1).sum

theorem walk (events : List String) (v : Viewer K) (hv : Valid v) (hs : InSync v) (hf : v.frozen = false)
    (h : ∀ es, es <+: events → 0 ≤ v.index + steps es ∧ v.index + steps es < v.sliceValues.length) :
    (scrolls events v).index = v.index + steps events := by
  induction events generalizing v with
  | nil => simp [scrolls, steps]
  | cons e es ih =>
    obtain ⟨-, h1, h2, h3, -, h5, h6, -⟩ := C67_event v hv hs e
    have hstep : ∀ fs, steps (e :: fs) = steps [e] + steps fs := fun fs => by simp [steps]
    have hone := h [e] (by simp)
    have hi : (Viewer.onscroll e v).2.index = v.index + steps [e] := by
      by_cases he : e = "up"
      · rw [h5 hf he]
        simp only [steps, he, List.map_cons, if_true, List.map_nil, List.sum_cons, List.sum_nil] at hone ⊢
        omega
      · rw [h6 hf he]
        simp only [steps, if_neg he, List.map_cons, List.map_nil, List.sum_cons, List.sum_nil] at hone ⊢
        omega
    rw [show scrolls (e :: es) v = scrolls es (Viewer.onscroll e v).2 from rfl,
      ih _ h1 h2 (by rw [h3.frozen, hf]) ?_, hi, hstep es]
    · ring
    · intro fs hfs
      have := h (e :: fs) (List.cons_prefix_cons.2 ⟨rfl, hfs⟩)
      rw [hstep fs] at this
      rw [hi, h3.values]
      omega

variable [IsStrictOrderedRing K]

/-- **C140** However a viewer was scrolled to a slice, it shows the same there, apart from marked coordinates; without
coordinates it is the same viewer. -/
theorem C140_same_slice (axis masked index frozen : PyVal K) (coordinates : Option (List (List (XF K))))
    (p p' : GProp K) (v : Viewer K) (hp : FitsGrid p)
    (h : Viewer.new axis masked index frozen coordinates p = (.ok v, p')) (es fs : List String)
    (hi : (scrolls es v).index = (scrolls fs v).index) :
    (scrolls es v).image = (scrolls fs v).image ∧ (scrolls es v).title = (scrolls fs v).title ∧
    (coordinates = none → scrolls es v = scrolls fs v) := by
  obtain ⟨g1, g2, -, -, -, -, g7⟩ := new_good _ _ _ _ _ _ _ _ hp h
  obtain ⟨-, i2, i3, -⟩ := scrolls_good es v g1 g2
  obtain ⟨-, j2, j3, -⟩ := scrolls_good fs v g1 g2
  have hs := showSame_of_index (scrolls fs v) (scrolls es v) j2 i2 ((SameCube.symm j3).trans i3) hi
  refine ⟨hs.image, hs.title, fun hc => ?_⟩
  have k1 := scrolls_lines es v g1 g2 (by rw [g7, hc])
  have k2 := scrolls_lines fs v g1 g2 (by rw [g7, hc])
  have hl : (scrolls es v).lines = (scrolls fs v).lines := by rw [k1, k2]
  obtain ⟨⟨a1, a2, a3, a4, a5, a6⟩, a7, a8, a9⟩ := hs
  generalize scrolls es v = x at *
  generalize scrolls fs v = y at *
  cases x
  cases y
  simp only at a1 a2 a3 a4 a5 a6 a7 a8 a9 hl
  subst a1 a2 a3 a4 a5 a6 a7 a8 a9 hl
  rfl

/-- **C140** While the ends are not reached, events add up: the index is the first one plus the number of "up" events
minus the number of others. -/
theorem C140_adds_up (axis masked index frozen : PyVal K) (coordinates : Option (List (List (XF K))))
    (p p' : GProp K) (v : Viewer K) (hp : FitsGrid p)
    (h : Viewer.new axis masked index frozen coordinates p = (.ok v, p')) (hf : frozen ≠ .bool true)
    (events : List String) (hw : ∀ es, es <+: events →
      0 ≤ v.index + steps es ∧ v.index + steps es < v.sliceValues.length) :
    (scrolls events v).index = v.index + steps events := by
  obtain ⟨g1, g2, -, -, g5, -, -⟩ := new_good _ _ _ _ _ _ _ _ hp h
  exact walk events v g1 g2 (by rw [g5]; simp [hf]) hw

/-- **C140** One step forward and one back, or one back and one forward, leads to what was shown, unless the viewer was
at the end; without coordinates the viewer is as before. -/
theorem C140_back (axis masked index frozen : PyVal K) (coordinates : Option (List (List (XF K))))
    (p p' : GProp K) (v : Viewer K) (hp : FitsGrid p)
    (h : Viewer.new axis masked index frozen coordinates p = (.ok v, p')) (es : List String) (d : String)
    (hd : d ≠ "up") :
    let w := scrolls es v
    (w.index + 1 < v.sliceValues.length → (scrolls ["up", d] w).index = w.index ∧
      (scrolls ["up", d] w).image = w.image ∧ (scrolls ["up", d] w).title = w.title ∧
      (coordinates = none → scrolls ["up", d] w = w)) ∧
    (0 < w.index → (scrolls [d, "up"] w).index = w.index ∧
      (scrolls [d, "up"] w).image = w.image ∧ (scrolls [d, "up"] w).title = w.title ∧
      (coordinates = none → scrolls [d, "up"] w = w)) := by
  intro w
  obtain ⟨g1, g2, -, -, -, -, -⟩ := new_good _ _ _ _ _ _ _ _ hp h
  obtain ⟨i1, i2, i3, i4⟩ := scrolls_good es v g1 g2
  have e1 : ∀ fs, scrolls fs w = scrolls (es ++ fs) v := fun fs => (scrolls_append es fs v).symm
  have s1 : ∀ x y : String, steps [x, y] = steps [x] + steps [y] := fun x y => by simp [steps]
  have up : steps ["up"] = 1 := by simp [steps]
  have dn : steps [d] = -1 := by simp [steps, hd]
  have nil : steps [] = 0 := rfl
  have low : 0 ≤ w.index := i1.low
  have high : w.index < w.sliceValues.length := i1.high
  have hvals : w.sliceValues = v.sliceValues := i3.values
  rw [hvals] at high
  have key : ∀ x y : String, steps [x, y] = 0 → 0 ≤ w.index + steps [x] →
      w.index + steps [x] < v.sliceValues.length → (scrolls [x, y] w).index = w.index := by
    intro x y h0 h1 h2
    by_cases hf : v.frozen = true
    · rw [e1, (scrolls_good (es ++ [x, y]) v g1 g2).2.2.2 hf]
      exact congrArg Viewer.index (i4 hf).symm
    · have hf' : w.frozen = false := by
        rw [show w.frozen = v.frozen from i3.frozen]
        simpa using hf
      rw [walk [x, y] w i1 i2 hf' ?_, h0, add_zero]
      intro l hl
      rw [hvals]
      have hlen := hl.length_le
      obtain ⟨r, hr⟩ := hl
      match l, hr with
      | [], _ => rw [nil]; exact ⟨by simpa using low, by simpa using high⟩
      | [z], hr =>
        simp only [List.cons_append, List.nil_append, List.cons.injEq] at hr
        rw [hr.1]
        exact ⟨h1, h2⟩
      | [z, z'], hr =>
        simp only [List.cons_append, List.nil_append, List.cons.injEq] at hr
        rw [hr.1, hr.2.1, h0]
        exact ⟨by simpa using low, by simpa using high⟩
      | _ :: _ :: _ :: _, _ => simp at hlen
  constructor
  · intro hlt
    have hi := key "up" d (by rw [s1, up, dn]; rfl) (by rw [up]; omega) (by rw [up]; exact hlt)
    rw [e1] at hi ⊢
    obtain ⟨k1, k2, k3⟩ := C140_same_slice axis masked index frozen coordinates p p' v hp h _ es hi
    exact ⟨hi, k1, k2, k3⟩
  · intro hlt
    have hi := key d "up" (by rw [s1, up, dn]; rfl) (by rw [dn]; omega) (by rw [dn]; omega)
    rw [e1] at hi ⊢
    obtain ⟨k1, k2, k3⟩ := C140_same_slice axis masked index frozen coordinates p p' v hp h _ es hi
    exact ⟨hi, k1, k2, k3⟩

/-- Non-vacuity: a viewer that is scrolled to the last slice and back, and one that is at its end, where the step
forward is lost. -/
theorem C140_witness : FitsGrid cube18 ∧
    ∃ v p', Viewer.new (.int 2) (.bool false) (.int 1) (.bool false) none cube18 = (.ok v, p') ∧
    v.sliceValues.length = 3 ∧ (scrolls ["up", "down"] v).index = 1 ∧ (scrolls ["up"] v).index = 2 ∧
    (scrolls ["up"] v).image ≠ v.image ∧ (scrolls ["up", "down", "down", "up"] v) = v ∧
    (scrolls ["up", "up", "down"] v).index = 1 := by
  refine ⟨by unfold FitsGrid; decide +kernel,
    ((Viewer.new (.int 2) (.bool false) (.int 1) (.bool false) none cube18).1.toOption).get
    (by decide +kernel), cube18, ?_⟩
  decide +kernel

end Beyonce
