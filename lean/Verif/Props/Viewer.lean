import Verif.Viewer
import Verif.Props.GridDiagnostics
import Verif.Props.GridProperty

/-!
# Properties C67, C68, C70, C71: `GridPropertyViewer`
-/

set_option linter.unusedSectionVars false

namespace Beyonce
open Spec
variable {K : Type} [Field K] [LinearOrder K]

/-- The element of a cube at `(i, j, k)`: C order. -/
def Spec.cell (d : Nd K) (b c i j k : ℕ) : XF K := d.data.getD ((i * b + j) * c + k) .nan

/-- `image` is slice `i` of the cube along `axis`: the other two axes in order. -/
def Spec.ShowsSlice (d : Nd K) (axis i : ℕ) (image : List (XF K)) : Prop :=
  ∃ a b c, d.shape = [a, b, c] ∧
    ((axis = 0 ∧ i < a ∧ image.length = b * c ∧
        ∀ j k, j < b → k < c → image[j * c + k]? = some (cell d b c i j k)) ∨
     (axis = 1 ∧ i < b ∧ image.length = a * c ∧
        ∀ j k, j < a → k < c → image[j * c + k]? = some (cell d b c j i k)) ∨
     (axis = 2 ∧ i < c ∧ image.length = a * b ∧
        ∀ j k, j < a → k < b → image[j * b + k]? = some (cell d b c j k i)))

/-- The shape of the data belongs to the vectors of the grid. -/
def Spec.FitsGrid (p : GProp K) : Prop :=
  p.data.shape = [p.params.dy.data.length, p.params.dx.data.length, p.params.rfArray.data.length]

/-- A sequence of scroll events; an exception in a handler is reported and the viewer lives on. -/
def Spec.scrolls (events : List String) (v : Viewer K) : Viewer K :=
  events.foldl (fun v e => (Viewer.onscroll e v).2) v

/-- A coordinate is near the slice that is shown. -/
def Spec.Near (v : Viewer K) (c : List (XF K)) : Prop :=
  ∃ s x, v.sliceValues[v.index.toNat]? = some s ∧ c[v.axis]? = some x ∧
    Less (s.sub x).abs v.tolerance

/-- Where a coordinate `(y, x, rf)` is drawn, from the labels of the two axes (L728-735):
horizontally rf, rf, x and vertically x, y, y. -/
def Spec.point (axis : ℕ) (c : List (XF K)) : XF K × XF K :=
  match axis, c with
  | 0, [_, x, r] => (r, x)
  | 1, [y, _, r] => (r, y)
  | _, [y, x, _] => (x, y)
  | _, _ => (.nan, .nan)

/-- What a viewer must satisfy for scrolling to work. -/
structure Spec.Valid (v : Viewer K) : Prop where
  axis : v.axis ≤ 2
  shape : ∃ a b c, v.data.shape = [a, b, c] ∧ v.sliceValues.length = [a, b, c].getD v.axis 0
  low : 0 ≤ v.index
  high : v.index < v.sliceValues.length
  coordinates : ∀ cs, v.coordinates = some cs → ∀ c ∈ cs, c.length = 3

/-! ## Lists -/

theorem grid_length {α : Type} (f : ℕ → ℕ → α) (m n : ℕ) :
    ((List.range m).flatMap fun j => (List.range n).map (f j)).length = m * n := by
  simp [List.length_flatMap]

theorem grid_get {α : Type} (f : ℕ → ℕ → α) (m n j k : ℕ) (hj : j < m) (hk : k < n) :
    ((List.range m).flatMap fun j => (List.range n).map (f j))[j * n + k]? = some (f j k) := by
  induction m with
  | zero => omega
  | succ m ih =>
    rw [List.range_succ, List.flatMap_append]
    by_cases h : j < m
    · rw [List.getElem?_append_left, ih h]
      rw [grid_length]
      calc j * n + k < j * n + n := by omega
        _ = (j + 1) * n := by ring
        _ ≤ m * n := Nat.mul_le_mul_right _ h
    · obtain rfl : j = m := by omega
      rw [List.getElem?_append_right (by rw [grid_length]; omega), grid_length]
      simp [hk]

theorem pyIndex_nonneg {α : Type} (l : List α) (i : ℤ) (h : 0 ≤ i) (h' : i < l.length) :
    ∃ x, l[i.toNat]? = some x ∧ pyIndex l i = .ok x := by
  have hi : i.toNat < l.length := by omega
  refine ⟨l[i.toNat], List.getElem?_eq_getElem hi, ?_⟩
  unfold pyIndex
  rw [if_neg (by omega), List.getElem?_eq_getElem hi]
  simp only
  rw [if_neg (by omega)]

theorem npTake_shows (d : Nd K) (axis : ℕ) (i : ℤ) (a b c : ℕ) (hs : d.shape = [a, b, c])
    (hax : axis ≤ 2) (h0 : 0 ≤ i) (h1 : i < ([a, b, c].getD axis 0 : ℕ)) :
    ∃ image, npTake d i axis = .ok image ∧ ShowsSlice d axis i.toNat image := by
  unfold npTake
  rw [hs]
  simp only
  rw [if_pos ⟨h0, h1⟩]
  refine ⟨_, rfl, a, b, c, hs, ?_⟩
  obtain rfl | rfl | rfl : axis = 0 ∨ axis = 1 ∨ axis = 2 := by omega
  · simp at h1
    refine Or.inl ⟨rfl, by omega, ?_, ?_⟩
    · simp only [slicePositions, List.length_map, grid_length]
    · intro j k hj hk
      simp only [slicePositions]
      rw [List.getElem?_map, grid_get _ _ _ _ _ hj hk]
      rfl
  · simp at h1
    refine Or.inr (Or.inl ⟨rfl, by omega, ?_, ?_⟩)
    · simp only [slicePositions, List.length_map, grid_length]
    · intro j k hj hk
      simp only [slicePositions]
      rw [List.getElem?_map, grid_get _ _ _ _ _ hj hk]
      rfl
  · simp at h1
    refine Or.inr (Or.inr ⟨rfl, by omega, ?_, ?_⟩)
    · simp only [slicePositions, List.length_map, grid_length]
    · intro j k hj hk
      simp only [slicePositions]
      rw [List.getElem?_map, grid_get _ _ _ _ _ hj hk]
      rfl

/-! ## One update -/

theorem mark_eq (v : Viewer K) (hv : Valid v) (c : List (XF K)) (hc : c.length = 3) :
    (Near v c ∧ v.mark c = .ok (some (point v.axis c))) ∨ (¬ Near v c ∧ v.mark c = .ok none) := by
  obtain ⟨s, hs, hs'⟩ := pyIndex_nonneg v.sliceValues v.index hv.low hv.high
  have hax := hv.axis
  obtain ⟨x, hx, hx'⟩ := pyIndex_nonneg c (v.axis : ℤ) (by omega) (by omega)
  rw [Int.toNat_natCast] at hx
  have hm : markOf c v.axis = .ok (point v.axis c) := by
    obtain ⟨y, x, r, rfl⟩ : ∃ y x r, c = [y, x, r] := by
      match c, hc with
      | [y, x, r], _ => exact ⟨y, x, r, rfl⟩
    obtain h | h | h : v.axis = 0 ∨ v.axis = 1 ∨ v.axis = 2 := by omega
    all_goals rw [h]; rfl
  have hn : Near v c ↔ XF.lt (s.sub x).abs v.tolerance = true := by
    constructor
    · rintro ⟨s', x', h1, h2, h3⟩
      rw [hs] at h1; rw [hx] at h2
      cases h1; cases h2
      exact (less_iff _ _).1 h3
    · intro h
      exact ⟨s, x, hs, hx, (less_iff _ _).2 h⟩
  unfold Viewer.mark
  simp only [hs', hx', bind, Except.bind, hm]
  by_cases h : XF.lt (s.sub x).abs v.tolerance = true
  · left; exact ⟨hn.2 h, by rw [if_pos h]⟩
  · right; exact ⟨fun h' => h (hn.1 h'), by rw [if_neg h]⟩

open Classical in
/-- The marks of the slice that is shown. -/
noncomputable def Spec.marks (v : Viewer K) : List (XF K × XF K) :=
  ((v.coordinates.getD []).filter fun c => decide (Near v c)).map (point v.axis)

theorem near_lines (v : Viewer K) (l : List (XF K × XF K)) (c : List (XF K)) :
    Near { v with lines := l } c ↔ Near v c := Iff.rfl

open Classical in
theorem plotLoop_eq (cs : List (List (XF K))) (b : Bool) (v : Viewer K) (hv : Valid v)
    (hc : ∀ c ∈ cs, c.length = 3) :
    Viewer.plotLoop cs b v =
      (.ok (b || cs.any fun c => decide (Near v c)),
       { v with
         lines := v.lines ++ (cs.filter fun c => decide (Near v c)).map (point v.axis) }) := by
  induction cs generalizing b v with
  | nil => simp [Viewer.plotLoop]
  | cons c cs ih =>
    have hcs : ∀ c ∈ cs, c.length = 3 := fun c h => hc c (List.mem_cons_of_mem _ h)
    unfold Viewer.plotLoop
    rw [Meth.get_bind]
    rcases mark_eq v hv c (hc c List.mem_cons_self) with ⟨hn, hm⟩ | ⟨hn, hm⟩
    · rw [hm, Meth.lift_ok_bind]
      simp only [Meth.modify_bind]
      rw [ih true { v with lines := v.lines ++ [point v.axis c] }
        ⟨hv.axis, hv.shape, hv.low, hv.high, hv.coordinates⟩ hcs]
      simp only [near_lines]
      simp [hn]
    · rw [hm, Meth.lift_ok_bind]
      simp only
      rw [ih b v hv hcs]
      simp [hn]

/-- The state after `update`: only the image, the lines and the title change. -/
theorem update_valid (v : Viewer K) (hv : Valid v) :
    ∃ image value direction lines,
      Viewer.update v = (.ok (), { v with
        image := image
        title := (value, direction)
        lines := lines }) ∧
      ShowsSlice v.data v.axis v.index.toNat image ∧
      v.sliceValues[v.index.toNat]? = some value ∧
      (direction = some .horizontal ↔ v.axis = 2 ∧ v.index < (v.sliceValues.length / 2 : ℕ)) ∧
      (direction = some .vertical ↔ v.axis = 2 ∧ (v.sliceValues.length / 2 : ℕ) < v.index) ∧
      (v.coordinates = none → lines = v.lines) ∧
      (v.coordinates ≠ none → lines = if marks v = [] then [] else v.lines ++ marks v) := by
  classical
  obtain ⟨a, b, c, hs, hl⟩ := hv.shape
  obtain ⟨image, hi, hshow⟩ := npTake_shows v.data v.axis v.index a b c hs hv.axis hv.low
    (by rw [← hl]; exact hv.high)
  obtain ⟨value, hval, hval'⟩ := pyIndex_nonneg v.sliceValues v.index hv.low hv.high
  -- the lines
  obtain ⟨lines, hlines, hl1, hl2⟩ : ∃ lines,
      Viewer.plotCoordinates { v with image := image } =
        (.ok (), { v with image := image, lines := lines }) ∧
      (v.coordinates = none → lines = v.lines) ∧
      (v.coordinates ≠ none → lines = if marks v = [] then [] else v.lines ++ marks v) := by
    unfold Viewer.plotCoordinates
    rw [Meth.get_bind]
    cases hco : v.coordinates with
    | none =>
      refine ⟨v.lines, ?_, fun _ => rfl, fun h => absurd rfl h⟩
      simp only
      rw [← hco]
      rfl
    | some cs =>
      have hv' : Valid { v with image := image } :=
        ⟨hv.axis, hv.shape, hv.low, hv.high, hv.coordinates⟩
      have hnear : ∀ c, Near { v with image := image } c ↔ Near v c := fun _ => Iff.rfl
      have hm : marks v = (cs.filter fun c => decide (Near v c)).map (point v.axis) := by
        unfold marks; rw [hco]; rfl
      simp only
      rw [Meth.bind_apply, ← hco, show ({ v with image := image } : Viewer K) =
        { v with image := image } from rfl]
      rw [plotLoop_eq cs false _ hv' (hv.coordinates cs hco)]
      simp only [hnear, Bool.false_or]
      by_cases hany : (cs.any fun c => decide (Near v c)) = true
      · rw [if_pos hany]
        refine ⟨v.lines ++ marks v, (by rw [hm]; rfl), (fun h => by rw [hco] at h; cases h), fun _ => ?_⟩
        rw [if_neg]
        rw [hm]
        obtain ⟨c, h1, h2⟩ := List.any_eq_true.1 hany
        intro h
        have h3 := List.map_eq_nil_iff.1 h
        have : c ∈ cs.filter fun c => decide (Near v c) := List.mem_filter.2 ⟨h1, h2⟩
        rw [h3] at this
        cases this
      · rw [if_neg hany]
        refine ⟨[], rfl, (fun h => by rw [hco] at h; cases h), fun _ => ?_⟩
        rw [if_pos]
        rw [hm]
        have : (cs.filter fun c => decide (Near v c)) = [] := by
          rw [List.filter_eq_nil_iff]
          intro c hc h
          exact hany (List.any_eq_true.2 ⟨c, hc, h⟩)
        rw [this]; rfl
  refine ⟨image, value, if v.axis = 2 then
      if v.index < ((v.sliceValues.length / 2 : ℕ) : ℤ) then some .horizontal
      else if ((v.sliceValues.length / 2 : ℕ) : ℤ) < v.index then some .vertical else none
    else none, lines, ?_, hshow, hval, ?_, ?_, hl1, hl2⟩
  · unfold Viewer.update
    rw [Meth.get_bind, hi, Meth.lift_ok_bind, Meth.modify_bind, Meth.bind_apply, hlines]
    simp only
    unfold Viewer.updateTitle
    rw [Meth.get_bind]
    simp only [hval', Meth.lift_ok_bind]
    rfl
  · by_cases h2 : v.axis = 2
    · rw [if_pos h2]
      by_cases h3 : v.index < ((v.sliceValues.length / 2 : ℕ) : ℤ)
      · rw [if_pos h3]; exact ⟨fun _ => ⟨h2, h3⟩, fun _ => rfl⟩
      · rw [if_neg h3]
        by_cases h4 : ((v.sliceValues.length / 2 : ℕ) : ℤ) < v.index
        · rw [if_pos h4]
          constructor
          · intro h; cases h
          · intro h; exact absurd h.2 h3
        · rw [if_neg h4]
          constructor
          · intro h; cases h
          · intro h; exact absurd h.2 h3
    · rw [if_neg h2]
      constructor
      · intro h; cases h
      · intro h; exact absurd h.1 h2
  · by_cases h2 : v.axis = 2
    · rw [if_pos h2]
      by_cases h3 : v.index < ((v.sliceValues.length / 2 : ℕ) : ℤ)
      · rw [if_pos h3]
        constructor
        · intro h; cases h
        · intro h; exact absurd h.2 (by omega)
      · rw [if_neg h3]
        by_cases h4 : ((v.sliceValues.length / 2 : ℕ) : ℤ) < v.index
        · rw [if_pos h4]; exact ⟨fun _ => ⟨h2, h4⟩, fun _ => rfl⟩
        · rw [if_neg h4]
          constructor
          · intro h; cases h
          · intro h; exact absurd h.2 h4
    · rw [if_neg h2]
      constructor
      · intro h; cases h
      · intro h; exact absurd h.1 h2

/-! ## Construction -/

theorem getData_ok (masked : PyVal K) (p p' : GProp K) (d : Nd K)
    (h : GProp.getData masked p = (.ok d, p')) :
    d = p'.data ∧ p'.params = p.params ∧ p'.data.shape = p.data.shape := by
  unfold GProp.getData at h
  cases hb : boolean masked with
  | error e => rw [hb] at h; cases h
  | ok b =>
    rw [hb] at h
    simp only [Meth.lift_ok_bind, Meth.get_bind] at h
    cases b with
    | false => cases h; exact ⟨rfl, rfl, rfl⟩
    | true =>
      cases hm : p.mask with
      | none => rw [hm] at h; cases h; exact ⟨rfl, rfl, rfl⟩
      | some m =>
        rw [hm] at h
        simp only at h
        by_cases hs : m.shape = p.data.shape
        · rw [if_pos hs] at h
          cases h; exact ⟨rfl, rfl, rfl⟩
        · rw [if_neg hs] at h; cases h

theorem error_bind {α β : Type} (e : Err) (f : α → Except Err β) :
    (Except.error e >>= f) = .error e := rfl

theorem ok_bind {α β : Type} (a : α) (f : α → Except Err β) :
    (Except.ok a >>= f) = f a := rfl

theorem vectorOf_fits (p : GProp K) (hp : FitsGrid p) (axis : ℕ) (hax : axis ≤ 2) :
    ∃ a b c, p.data.shape = [a, b, c] ∧
      (Viewer.vectorOf p.params axis).length = [a, b, c].getD axis 0 := by
  refine ⟨_, _, _, hp, ?_⟩
  obtain rfl | rfl | rfl : axis = 0 ∨ axis = 1 ∨ axis = 2 := by omega
  all_goals rfl

/-- What `start` builds. -/
theorem start_ok [IsStrictOrderedRing K] (data : Nd K) (g : GridParams K) (axis index : PyVal K)
    (coordinates : Option (List (List (XF K)))) (v : Viewer K)
    (h : Viewer.start data g axis index coordinates = .ok v) :
    v.axis = axis.toInt.toNat ∧ v.data = data ∧ v.sliceValues = Viewer.vectorOf g v.axis ∧
    v.coordinates = coordinates ∧ v.frozen = false ∧ v.lines = [] ∧
    0 ≤ v.index ∧ v.index < v.sliceValues.length ∧
    (index = .none → v.index = (v.sliceValues.length / 2 : ℕ)) ∧
    (index ≠ .none → IsInteger index v.index) ∧
    (∀ cs, coordinates = some cs → ∀ c ∈ cs, c.length = 3) ∧
    ∃ s0 s1, v.sliceValues[0]? = some s0 ∧ v.sliceValues[1]? = some s1 ∧
      v.tolerance = ((s1.sub s0).abs).div (.fin 3) := by
  unfold Viewer.start at h
  simp only at h
  generalize hvals : Viewer.vectorOf g axis.toInt.toNat = values at h
  cases h1 : Viewer.indexOf index values.length with
  | error e => rw [h1, error_bind] at h; cases h
  | ok i =>
  rw [h1, ok_bind] at h
  cases h2 : Viewer.checkCoordinates coordinates with
  | error e => rw [h2, error_bind] at h; cases h
  | ok u =>
  rw [h2, ok_bind] at h
  cases h3 : Viewer.toleranceOf values with
  | error e => rw [h3, error_bind] at h; cases h
  | ok t =>
  rw [h3, ok_bind] at h
  cases h4 : Viewer.noBool i with
  | error e => rw [h4, error_bind] at h; cases h
  | ok u =>
  rw [h4, ok_bind] at h
  cases h5 : pyIndex values i.toInt with
  | error e => rw [h5, error_bind] at h; cases h
  | ok s =>
  rw [h5, ok_bind] at h
  cases h6 : Viewer.determineExtent axis.toInt.toNat g with
  | error e => rw [h6, error_bind] at h; cases h
  | ok u =>
  rw [h6, ok_bind] at h
  cases h7 : Viewer.noBool axis with
  | error e => rw [h7, error_bind] at h; cases h
  | ok u =>
  rw [h7, ok_bind] at h
  cases h8 : npTake data i.toInt axis.toInt.toNat with
  | error e => rw [h8, error_bind] at h; cases h
  | ok u =>
  rw [h8, ok_bind] at h
  cases h
  unfold Viewer.indexOf at h1
  obtain ⟨rfl, n, hn, hn0, hn1⟩ := (number_between _ _ _).1 h1
  have hti := isInteger_toInt hn
  refine ⟨rfl, rfl, hvals.symm, rfl, rfl, rfl, ?_, ?_, ?_, ?_, ?_, ?_⟩
  · simp only; omega
  · simp only; omega
  · intro hi; simp only [hi, if_true]; rfl
  · intro hi
    rw [if_neg hi] at hn hti
    simp only [if_neg hi]
    rw [hti]; exact hn
  · intro cs hcs c hc
    subst hcs
    unfold Viewer.checkCoordinates at h2
    simp only at h2
    by_cases hall : (cs.all fun c => decide (c.length = 3)) = true
    · have := List.all_eq_true.1 hall c hc
      simpa using this
    · rw [if_neg hall] at h2; cases h2
  · unfold Viewer.toleranceOf at h3
    cases h9 : pyIndex values 1 with
    | error e => rw [h9, error_bind] at h3; cases h3
    | ok b =>
    rw [h9, ok_bind] at h3
    cases h10 : pyIndex values 0 with
    | error e => rw [h10, error_bind] at h3; cases h3
    | ok a =>
    rw [h10, ok_bind] at h3
    cases h3
    refine ⟨a, b, ?_, ?_, rfl⟩
    · unfold pyIndex at h10
      cases hv : values[0]? with
      | none => simp [hv] at h10
      | some w => simpa [hv] using h10
    · unfold pyIndex at h9
      cases hv : values[1]? with
      | none => simp [hv] at h9
      | some w => simpa [hv] using h9

theorem new_ok [IsStrictOrderedRing K] (axis masked index frozen : PyVal K)
    (coordinates : Option (List (List (XF K)))) (p p' : GProp K) (v : Viewer K)
    (h : Viewer.new axis masked index frozen coordinates p = (.ok v, p')) :
    ∃ (ax : ℤ) (data : Nd K) (v0 v1 : Viewer K), IsInteger axis ax ∧ 0 ≤ ax ∧ ax ≤ 2 ∧
      GProp.getData masked p = (.ok data, p') ∧
      Viewer.start data p.params axis index coordinates = .ok v0 ∧
      Viewer.update v0 = (.ok (), v1) ∧
      ((frozen = .none ∧ v = v1) ∨ ∃ f, frozen = .bool f ∧ v = { v1 with frozen := f }) := by
  unfold Viewer.new at h
  cases h1 : number axis (.bool true) (.int 0) (.int 2) with
  | error e => rw [h1] at h; cases h
  | ok ax =>
  obtain ⟨rfl, n, hn, hn0, hn1⟩ := (number_between _ _ _).1 h1
  rw [h1, Meth.lift_ok_bind, Meth.bind_apply] at h
  generalize h2 : GProp.getData masked p = q at h
  obtain ⟨(e | data), p1⟩ := q
  · cases h
  simp only [Meth.get_bind] at h
  obtain ⟨-, hpar, -⟩ := getData_ok _ _ _ _ h2
  rw [hpar] at h
  cases h3 : Viewer.start data p.params ax index coordinates with
  | error e => rw [h3] at h; cases h
  | ok v0 =>
  rw [h3, Meth.lift_ok_bind] at h
  unfold Viewer.finish at h
  generalize h4 : Viewer.update v0 = q at h
  obtain ⟨(e | u), v1⟩ := q
  · cases h
  simp only at h
  by_cases hf : frozen = .none
  · rw [if_pos hf] at h
    cases h
    exact ⟨n, data, v0, v, hn, hn0, hn1, rfl, h3, h4, Or.inl ⟨hf, rfl⟩⟩
  · rw [if_neg hf] at h
    cases hb : boolean frozen with
    | error e => rw [hb] at h; cases h
    | ok b =>
      have hv : frozen = .bool b := by
        cases frozen <;> simp_all [boolean, classObject, isinstance, bind, Except.bind]
      rw [hb, ok_bind] at h
      cases h
      exact ⟨n, data, v0, v1, hn, hn0, hn1, rfl, h3, h4, Or.inr ⟨b, hv, rfl⟩⟩

/-- Two viewers of the same cube. -/
structure Spec.SameCube (v w : Viewer K) : Prop where
  axis : w.axis = v.axis
  data : w.data = v.data
  values : w.sliceValues = v.sliceValues
  coordinates : w.coordinates = v.coordinates
  tolerance : w.tolerance = v.tolerance
  frozen : w.frozen = v.frozen

theorem Spec.SameCube.refl (v : Viewer K) : SameCube v v := ⟨rfl, rfl, rfl, rfl, rfl, rfl⟩

theorem Spec.SameCube.trans {u v w : Viewer K} (h : SameCube u v) (h' : SameCube v w) :
    SameCube u w :=
  ⟨h'.axis.trans h.axis, h'.data.trans h.data, h'.values.trans h.values,
    h'.coordinates.trans h.coordinates, h'.tolerance.trans h.tolerance, h'.frozen.trans h.frozen⟩

/-- What the window shows belongs to the index. -/
structure Spec.InSync (v : Viewer K) : Prop where
  image : ShowsSlice v.data v.axis v.index.toNat v.image
  value : v.sliceValues[v.index.toNat]? = some v.title.1
  horizontal : v.title.2 = some .horizontal ↔
    v.axis = 2 ∧ v.index < (v.sliceValues.length / 2 : ℕ)
  vertical : v.title.2 = some .vertical ↔
    v.axis = 2 ∧ (v.sliceValues.length / 2 : ℕ) < v.index

theorem update_good (v : Viewer K) (hv : Valid v) :
    (Viewer.update v).1 = .ok () ∧ Valid (Viewer.update v).2 ∧ InSync (Viewer.update v).2 ∧
    SameCube v (Viewer.update v).2 ∧ (Viewer.update v).2.index = v.index := by
  obtain ⟨image, value, direction, lines, h, h1, h2, h3, h4, -, -⟩ := update_valid v hv
  rw [h]
  exact ⟨rfl, ⟨hv.axis, hv.shape, hv.low, hv.high, hv.coordinates⟩, ⟨h1, h2, h3, h4⟩,
    ⟨rfl, rfl, rfl, rfl, rfl, rfl⟩, rfl⟩

variable [IsStrictOrderedRing K]

/-- A viewer that could be built can be scrolled, and shows what its index says. -/
theorem new_good (axis masked index frozen : PyVal K)
    (coordinates : Option (List (List (XF K)))) (p p' : GProp K) (v : Viewer K) (hp : FitsGrid p)
    (h : Viewer.new axis masked index frozen coordinates p = (.ok v, p')) :
    Valid v ∧ InSync v ∧ v.sliceValues = Viewer.vectorOf p.params v.axis ∧ v.data = p'.data ∧
      v.frozen = decide (frozen = .bool true) ∧ IsInteger axis v.axis ∧
      v.coordinates = coordinates := by
  obtain ⟨ax, data, v0, v1, hax, h0, h2, hd, hs, hu, hf⟩ := new_ok _ _ _ _ _ _ _ _ h
  obtain ⟨hd1, hd2, hd3⟩ := getData_ok _ _ _ _ hd
  obtain ⟨s1, s2, s3, s4, s5, s6, s7, s8, -, -, s9, -⟩ := start_ok _ _ _ _ _ _ hs
  have hti := isInteger_toInt hax
  have haxis : (v0.axis : ℤ) = ax := by rw [s1, hti]; omega
  have hvalid : Valid v0 := by
    refine ⟨by omega, ?_, s7, s8, by rw [s4]; exact s9⟩
    obtain ⟨a, b, c, h3, h4⟩ := vectorOf_fits p hp v0.axis (by omega)
    exact ⟨a, b, c, by rw [s2, hd1, hd3, h3], by rw [s3, h4]⟩
  obtain ⟨g1, g2, g3, g4, g5⟩ := update_good v0 hvalid
  rw [hu] at g1 g2 g3 g4 g5
  simp only at g1 g2 g3 g4 g5
  have hsv : v1.sliceValues = Viewer.vectorOf p.params v1.axis := by
    rw [g4.values, s3, g4.axis]
  have hdat : v1.data = p'.data := by rw [g4.data, s2, hd1]
  have hint : IsInteger axis v1.axis := by rw [g4.axis, haxis]; exact hax
  have hco : v1.coordinates = coordinates := g4.coordinates.trans s4
  rcases hf with ⟨hf, rfl⟩ | ⟨f, hf, rfl⟩
  · refine ⟨g2, g3, hsv, hdat, ?_, hint, hco⟩
    rw [g4.frozen, s5, hf]; rfl
  · refine ⟨⟨g2.axis, g2.shape, g2.low, g2.high, g2.coordinates⟩,
      ⟨g3.image, g3.value, g3.horizontal, g3.vertical⟩, hsv, hdat, ?_, hint, hco⟩
    rw [hf]; cases f <;> rfl

/-! ## C67: scrolling -/

omit [IsStrictOrderedRing K] in
/-- One event: a frozen viewer does not change at all; otherwise "up" moves one slice forward and
anything else one back, stopping at the ends. -/
theorem C67_event (v : Viewer K) (hv : Valid v) (hs : InSync v) (e : String) :
    let w := (Viewer.onscroll e v).2
    (Viewer.onscroll e v).1 = .ok () ∧ Valid w ∧ InSync w ∧ SameCube v w ∧
    (v.frozen = true → w = v) ∧
    (v.frozen = false → e = "up" → w.index = min (v.index + 1) (v.sliceValues.length - 1)) ∧
    (v.frozen = false → e ≠ "up" → w.index = max (v.index - 1) 0) ∧
    |w.index - v.index| ≤ 1 := by
  intro w
  have h1 := hv.low
  have h2 := hv.high
  by_cases hf : v.frozen = true
  · have hw : Viewer.onscroll e v = (.ok (), v) := by
      unfold Viewer.onscroll
      rw [Meth.get_bind, if_pos hf]; rfl
    have hw' : w = v := by simp only [w, hw]
    rw [hw', hw]
    refine ⟨rfl, hv, hs, .refl v, fun _ => rfl, ?_, ?_, by simp⟩
    · intro h; rw [h] at hf; cases hf
    · intro h; rw [h] at hf; cases hf
  · have hsc : 0 ≤ v.scrolled e ∧ v.scrolled e < v.sliceValues.length ∧
        (e = "up" → v.scrolled e = min (v.index + 1) (v.sliceValues.length - 1)) ∧
        (e ≠ "up" → v.scrolled e = max (v.index - 1) 0) := by
      unfold Viewer.scrolled
      by_cases he : e = "up"
      · by_cases hi : v.index < (v.sliceValues.length : ℤ) - 1
        · rw [if_pos ⟨he, hi⟩]
          refine ⟨by omega, by omega, fun _ => by omega, fun h => absurd he h⟩
        · rw [if_neg (fun h => hi h.2), if_neg (fun h => h.1 he)]
          refine ⟨by omega, by omega, fun _ => by omega, fun h => absurd he h⟩
      · rw [if_neg (fun h => he h.1)]
        by_cases hi : 0 < v.index
        · rw [if_pos ⟨he, hi⟩]
          refine ⟨by omega, by omega, fun h => absurd h he, fun _ => by omega⟩
        · rw [if_neg (fun h => hi h.2)]
          refine ⟨by omega, by omega, fun h => absurd h he, fun _ => by omega⟩
    obtain ⟨c1, c2, c3, c4⟩ := hsc
    obtain ⟨g1, g2, g3, g4, g5⟩ := update_good { v with index := v.scrolled e }
      ⟨hv.axis, hv.shape, c1, c2, hv.coordinates⟩
    have hw : Viewer.onscroll e v = Viewer.update { v with index := v.scrolled e } := by
      unfold Viewer.onscroll
      rw [Meth.get_bind, if_neg hf, Meth.bind_apply, Meth.set_apply]
    have hw' : w = (Viewer.update { v with index := v.scrolled e }).2 := by simp only [w, hw]
    have hi : w.index = v.scrolled e := by rw [hw', g5]
    rw [← hw'] at g2 g3 g4
    refine ⟨by rw [hw]; exact g1, g2, g3,
      ⟨g4.axis, g4.data, g4.values, g4.coordinates, g4.tolerance, g4.frozen⟩,
      fun h => absurd h hf, fun _ he => by rw [hi, c3 he], fun _ he => by rw [hi, c4 he], ?_⟩
    rw [hi]
    by_cases he : e = "up"
    · rw [c3 he, abs_le]; omega
    · rw [c4 he, abs_le]; omega

omit [IsStrictOrderedRing K] in
theorem scrolls_good (events : List String) (v : Viewer K) (hv : Valid v) (hs : InSync v) :
    Valid (scrolls events v) ∧ InSync (scrolls events v) ∧ SameCube v (scrolls events v) ∧
    (v.frozen = true → scrolls events v = v) := by
  induction events generalizing v with
  | nil => exact ⟨hv, hs, .refl v, fun _ => rfl⟩
  | cons e es ih =>
    obtain ⟨-, h1, h2, h3, h4, -⟩ := C67_event v hv hs e
    obtain ⟨i1, i2, i3, i4⟩ := ih _ h1 h2
    refine ⟨i1, i2, h3.trans i3, ?_⟩
    intro hf
    have := i4 (by rw [h3.frozen, hf])
    rw [show scrolls (e :: es) v = scrolls es (Viewer.onscroll e v).2 from rfl, this, h4 hf]

/-- C67: after any sequence of scroll events the index of a viewer lies in its axis, the image is
that slice of the data the viewer was made with, the title names the value of that slice, and no
event raised; a frozen viewer shows what it showed first. -/
theorem C67_scrolling (axis masked index frozen : PyVal K)
    (coordinates : Option (List (List (XF K)))) (p p' : GProp K) (v : Viewer K) (hp : FitsGrid p)
    (h : Viewer.new axis masked index frozen coordinates p = (.ok v, p')) (events : List String) :
    let w := scrolls events v
    let vectors := [p.params.dy.data, p.params.dx.data, p.params.rfArray.data]
    ∃ (ax i : ℕ) (values : List (XF K)),
      IsInteger axis ax ∧ vectors[ax]? = some values ∧ w.index = i ∧ i < values.length ∧
      ShowsSlice p'.data ax i w.image ∧ values[i]? = some w.title.1 ∧
      (frozen = .bool true → w = v) ∧
      (frozen ≠ .bool true → ∀ e,
        (Viewer.onscroll e w).1 = .ok () ∧
        (Viewer.onscroll e w).2.index =
          if e = "up" then min (w.index + 1) (values.length - 1) else max (w.index - 1) 0) := by
  intro w vectors
  obtain ⟨g1, g2, g3, g4, g5, g6, -⟩ := new_good _ _ _ _ _ _ _ _ hp h
  obtain ⟨i1, i2, i3, i4⟩ := scrolls_good events v g1 g2
  have l1 := i1.low
  have l2 := i1.high
  refine ⟨v.axis, w.index.toNat, v.sliceValues, g6, ?_, ?_, ?_, ?_, ?_, ?_, ?_⟩
  · have := g1.axis
    rw [g3]
    obtain h | h | h : v.axis = 0 ∨ v.axis = 1 ∨ v.axis = 2 := by omega
    all_goals rw [h]; rfl
  · simp only [w]; omega
  · rw [← i3.values]; simp only [w]; omega
  · have := i2.image
    rw [i3.data, i3.axis, g4] at this
    exact this
  · rw [← i3.values]; exact i2.value
  · intro hf
    exact i4 (by rw [g5, hf]; simp)
  · intro hf e
    obtain ⟨h1, -, -, -, -, h5, h6, -⟩ := C67_event w i1 i2 e
    have hfr : w.frozen = false := by rw [i3.frozen, g5]; simp [hf]
    refine ⟨h1, ?_⟩
    by_cases he : e = "up"
    · rw [if_pos he, h5 hfr he, i3.values]
    · rw [if_neg he, h6 hfr he]

theorem scrolls_down (v : Viewer K) (hv : Valid v) (hs : InSync v) (hf : v.frozen = false) (k : ℕ) :
    (scrolls (List.replicate k "down") v).index = max (v.index - k) 0 := by
  induction k generalizing v with
  | zero => have := hv.low; simp [scrolls]; omega
  | succ k ih =>
    obtain ⟨-, h1, h2, h3, -, -, h6, -⟩ := C67_event v hv hs "down"
    have := ih _ h1 h2 (by rw [h3.frozen, hf])
    rw [List.replicate_succ, show scrolls ("down" :: List.replicate k "down") v =
      scrolls (List.replicate k "down") (Viewer.onscroll "down" v).2 from rfl, this,
      h6 hf (by decide)]
    push_cast
    omega

theorem scrolls_up (v : Viewer K) (hv : Valid v) (hs : InSync v) (hf : v.frozen = false) (k : ℕ) :
    (scrolls (List.replicate k "up") v).index = min (v.index + k) (v.sliceValues.length - 1) := by
  induction k generalizing v with
  | zero => have := hv.high; simp [scrolls]; omega
  | succ k ih =>
    obtain ⟨-, h1, h2, h3, -, h5, -⟩ := C67_event v hv hs "up"
    have := ih _ h1 h2 (by rw [h3.frozen, hf])
    rw [List.replicate_succ, show scrolls ("up" :: List.replicate k "up") v =
      scrolls (List.replicate k "up") (Viewer.onscroll "up" v).2 from rfl, this,
      h5 hf rfl, h3.values]
    push_cast
    omega

/-- C67: every slice can be reached by scrolling. -/
theorem C67_reach (axis masked index frozen : PyVal K)
    (coordinates : Option (List (List (XF K)))) (p p' : GProp K) (v : Viewer K) (hp : FitsGrid p)
    (h : Viewer.new axis masked index frozen coordinates p = (.ok v, p'))
    (hf : frozen ≠ .bool true) (i : ℕ) (hi : i < v.sliceValues.length) :
    ∃ events, (scrolls events v).index = i := by
  obtain ⟨g1, g2, -, -, g5, -, -⟩ := new_good _ _ _ _ _ _ _ _ hp h
  have hfr : v.frozen = false := by rw [g5]; simp [hf]
  have hlow := g1.low
  obtain ⟨i1, i2, i3, -⟩ := scrolls_good (List.replicate v.index.toNat "down") v g1 g2
  refine ⟨List.replicate v.index.toNat "down" ++ List.replicate i "up", ?_⟩
  rw [show scrolls (List.replicate v.index.toNat "down" ++ List.replicate i "up") v =
    scrolls (List.replicate i "up") (scrolls (List.replicate v.index.toNat "down") v) by
      unfold scrolls; rw [List.foldl_append]]
  rw [scrolls_up _ i1 i2 (by rw [i3.frozen, hfr]), scrolls_down v g1 g2 hfr, i3.values]
  omega

/-! ### `FitsGrid` holds of every property that is made for a grid -/

theorem fits_new (minX maxX numX minY maxY numY maxRf numRf : PyVal K) (g : GridParams K)
    (hg : GridParams.new minX maxX numX minY maxY numY maxRf numRf = .ok g) (name : PropName)
    (unit : PropUnit) (data : PyVal K) (p : GProp K) (hp : GProp.new name unit data g = .ok p) :
    FitsGrid p := by
  obtain ⟨a, b, nx, c, d, ny, m, nr, -, -, -, rfl⟩ := (new_ok_iff ..).1 hg
  obtain ⟨arr, -, -, hs, rfl⟩ := (prop_new_ok_iff ..).1 hp
  unfold FitsGrid
  simp only [hs, gridOf]
  rw [linspace_length, linspace_length]

theorem fits_setMask (p : GProp K) (hp : FitsGrid p) (v : PyVal K) :
    FitsGrid (GProp.setMask v p).2 := by
  rcases setMask_cases v p with ⟨a, -, -, -, h⟩ | ⟨⟨e, h⟩, -⟩
  · rw [h]; exact hp
  · rw [h]; exact hp

theorem fits_getData (p : GProp K) (hp : FitsGrid p) (v : PyVal K) : FitsGrid (GProp.getData v p).2 := by
  rcases getData_cases v p with ⟨m, -, -, -, h⟩ | h
  · rw [h]; exact hp
  · rw [h]; exact hp

/-! ## C68: the direction in the title of an Rf slice -/

/-- C68: with `n` values of Rf, the slices before position `n - 1`, where Rf = 1, are called
horizontal, those after it vertical and that slice has no direction; the title's value is the Rf of
the slice, which grows with the distance from the middle. -/
theorem C68_direction (minX maxX numX minY maxY numY maxRf numRf : PyVal K) (g : GridParams K)
    (hg : GridParams.new minX maxX numX minY maxY numY maxRf numRf = .ok g) (m : K) (n : ℕ)
    (hm : IsNumber false maxRf (.fin m)) (hn : Count numRf n)
    (masked index frozen : PyVal K) (coordinates : Option (List (List (XF K)))) (p p' : GProp K)
    (v : Viewer K) (hp : FitsGrid p) (hpg : p.params = g)
    (h : Viewer.new (.int 2) masked index frozen coordinates p = (.ok v, p'))
    (events : List String) :
    let w := scrolls events v
    (w.title.2 = some .horizontal ↔ w.index < n - 1) ∧
    (w.title.2 = some .vertical ↔ n - 1 < w.index) ∧
    (w.title.2 = none ↔ w.index = n - 1) ∧
    ∃ step : K, 0 ≤ step ∧ (1 < m → 0 < step) ∧
      w.title.1 = .fin (1 + |(w.index : K) - (n - 1)| * step) := by
  intro w
  obtain ⟨g1, g2, g3, -, -, g6, -⟩ := new_good _ _ _ _ _ _ _ _ hp h
  obtain ⟨i1, i2, i3, -⟩ := scrolls_good events v g1 g2
  obtain ⟨r1, -, -, -, step, s1, s2, s3⟩ := C22_rf_array _ _ _ _ _ _ _ _ g hg m n hm hn
  have hn1 := hn.1
  have hax : v.axis = 2 := by
    have : (v.axis : ℤ) = 2 := by
      have h1 := isInteger_toInt g6
      simpa [PyVal.toInt] using h1.symm
    omega
  have hax' : w.axis = 2 := i3.axis.trans hax
  have hval : w.sliceValues = g.rfArray.data := by
    rw [i3.values, g3, hax, hpg]; rfl
  have hlen : w.sliceValues.length = 2 * n - 1 := by rw [hval, r1]
  have hmid : ((w.sliceValues.length / 2 : ℕ) : ℤ) = n - 1 := by rw [hlen]; omega
  have hh := i2.horizontal
  have hv := i2.vertical
  rw [show scrolls events v = w from rfl] at hh hv
  rw [hmid] at hh hv
  have hh' : w.title.2 = some .horizontal ↔ w.index < n - 1 :=
    hh.trans ⟨fun h => h.2, fun h => ⟨hax', h⟩⟩
  have hv' : w.title.2 = some .vertical ↔ n - 1 < w.index :=
    hv.trans ⟨fun h => h.2, fun h => ⟨hax', h⟩⟩
  refine ⟨hh', hv', ?_, step, s1, s2, ?_⟩
  · constructor
    · intro hnone
      rw [hnone] at hh' hv'
      have a1 : ¬ w.index < n - 1 := fun h => by cases hh'.2 h
      have a2 : ¬ (n - 1 : ℤ) < w.index := fun h => by cases hv'.2 h
      omega
    · intro he
      cases ht : w.title.2 with
      | none => rfl
      | some d =>
        rw [ht] at hh' hv'
        cases d with
        | horizontal => have := hh'.1 rfl; omega
        | vertical => have := hv'.1 rfl; omega
  · have hl : (0 : ℤ) ≤ w.index := i1.low
    have hhi : w.index < 2 * n - 1 := by
      have : w.index < w.sliceValues.length := i1.high
      omega
    have hvalue : w.sliceValues[w.index.toNat]? = some w.title.1 := i2.value
    rw [hval] at hvalue
    obtain ⟨k, hk⟩ := Int.eq_ofNat_of_zero_le hl
    rw [hk] at hvalue hhi ⊢
    rw [Int.toNat_natCast] at hvalue
    by_cases hside : n - 1 ≤ k
    · obtain ⟨j, rfl⟩ := Nat.exists_eq_add_of_le hside
      have := (s3 j (by omega)).1
      rw [hvalue] at this
      rw [Option.some.inj this]
      congr 1
      push_cast [Nat.cast_sub hn1]
      rw [show ((n : K) - 1 + j - (n - 1)) = j by ring, abs_of_nonneg (Nat.cast_nonneg j)]
    · obtain ⟨j, hj⟩ := Nat.exists_eq_add_of_le (show k ≤ n - 1 by omega)
      have := (s3 j (by omega)).2
      rw [show n - 1 - j = k by omega, hvalue] at this
      rw [Option.some.inj this]
      congr 1
      have hnk : (n : K) - 1 = k + j := by
        have : ((n - 1 : ℕ) : K) = ((k + j : ℕ) : K) := by rw [hj]
        push_cast [Nat.cast_sub hn1] at this
        exact this
      push_cast
      rw [hnk, show ((k : K) - (k + j)) = -j by ring, abs_neg, abs_of_nonneg (Nat.cast_nonneg j)]

/-! ## C70: where a coordinate is marked on the Rf axis -/

omit [IsStrictOrderedRing K] in
/-- On the slices with an Rf axis a coordinate is drawn at the location `rf`, whatever the labels. -/
theorem C70_location (v : Viewer K) (hv : Valid v) (hax : v.axis = 0 ∨ v.axis = 1)
    (y x r : XF K) (q : XF K × XF K) (hq : v.mark [y, x, r] = .ok (some q)) : q.1 = r := by
  rcases mark_eq v hv [y, x, r] rfl with ⟨-, h⟩ | ⟨-, h⟩
  · rw [h] at hq
    cases hq
    rcases hax with hax | hax <;> rw [hax] <;> rfl
  · rw [h] at hq; cases hq

/-- C70 (what holds of it): the label on the axis at the place where a coordinate with Rf = `r` is
marked is `r` for all values of the grid only if the largest value is 2. -/
theorem C70_marks_partial (m : K) (hm : 1 < m) :
    (∀ r : K, 1 ≤ r → r ≤ m → Viewer.rfLabel (.fin 1) (.fin m) (.fin r) = .fin r) ↔ m = 2 := by
  have key : ∀ r : K, Viewer.rfLabel (.fin 1) (.fin m) (.fin r) = .fin (1 + |r - (m - 1)|) := by
    intro r
    simp [Viewer.rfLabel, XF.sub, XF.add, XF.neg, XF.abs, sub_eq_add_neg]
  constructor
  · intro h
    have h1 := h m hm.le le_rfl
    rw [key] at h1
    injection h1 with h1
    rw [show m - (m - 1) = 1 by ring, abs_one] at h1
    rw [← h1]; norm_num
  · rintro rfl r h1 -
    rw [key]
    congr 1
    rw [show r - (2 - 1) = r - 1 by ring, abs_of_nonneg (by linarith)]
    ring

/-- The label in the middle of column `k` of the image (extent `[0, 2 (m - 1)]`, `2 n - 1` columns)
differs from the Rf value of that column by at most half a column. -/
theorem column_label (m : K) (hm : 1 < m) (n k : ℕ) (hn : 2 ≤ n) (hk : k < 2 * n - 1) :
    ∃ l : K, Viewer.rfLabel (.fin 1) (.fin m)
        (.fin ((k + 1 / 2) * (2 * (m - 1) / (2 * n - 1)))) = .fin l ∧
      |l - (1 + |(k : K) - (n - 1)| * ((m - 1) / (n - 1)))| ≤ (m - 1) / (2 * n - 1) := by
  have hR : 0 < m - 1 := by linarith
  have hn1 : (0 : K) < n - 1 := by
    have : (2 : K) ≤ n := by exact_mod_cast hn
    linarith
  have hn2 : (0 : K) < 2 * n - 1 := by linarith
  set t : K := (k : K) - (n - 1) with ht
  have htb : |t| ≤ n - 1 := by
    have hk' : (k : K) ≤ 2 * n - 2 := by
      have : (k : K) + 2 ≤ 2 * n := by exact_mod_cast (show k + 2 ≤ 2 * n by omega)
      linarith
    have hk0 : (0 : K) ≤ k := Nat.cast_nonneg k
    rw [abs_le, ht]; constructor <;> linarith
  refine ⟨1 + |t| * (2 * (m - 1) / (2 * n - 1)), ?_, ?_⟩
  · simp only [Viewer.rfLabel, XF.sub, XF.add, XF.neg, XF.abs]
    congr 2
    rw [show ((k : K) + 1 / 2) * (2 * (m - 1) / (2 * n - 1)) + -(m + -1) =
      t * (2 * (m - 1) / (2 * n - 1)) by rw [ht]; field_simp; ring]
    rw [abs_mul, abs_of_pos (show 0 < 2 * (m - 1) / (2 * (n : K) - 1) by positivity)]
  · rw [show (1 + |t| * (2 * (m - 1) / (2 * (n : K) - 1))) - (1 + |t| * ((m - 1) / (n - 1))) =
      -(|t| / (n - 1) * ((m - 1) / (2 * n - 1))) by
        have := hn1.ne'; have := hn2.ne'
        field_simp; ring]
    rw [abs_neg, abs_of_nonneg (by positivity)]
    calc |t| / (n - 1) * ((m - 1) / (2 * n - 1)) ≤ 1 * ((m - 1) / (2 * n - 1)) := by
          apply mul_le_mul_of_nonneg_right _ (by positivity)
          rw [div_le_one hn1]; exact htb
      _ = _ := one_mul _

theorem pyIndex_last {α : Type} (l : List α) (h : l ≠ []) :
    pyIndex l (-1) = .ok (l.getLast h) := by
  have h0 : 0 < l.length := List.length_pos_iff.2 h
  have e : (-1 + (l.length : ℤ)).toNat = l.length - 1 := by omega
  unfold pyIndex
  rw [if_pos (by omega), e, List.getElem?_eq_getElem (by omega)]
  simp only
  rw [if_neg (by omega), List.getLast_eq_getElem]

/-- The image of a grid with radius factors from 1 to `m` has the extent given by
`determine_extent`, divided into `2 n - 1` columns: on the slices with an Rf axis the label in the
middle of each column differs from the Rf value of that column by at most half a column. -/
theorem C70_columns (minX maxX numX minY maxY numY maxRf numRf : PyVal K) (g : GridParams K)
    (hg : GridParams.new minX maxX numX minY maxY numY maxRf numRf = .ok g) (m : K) (n : ℕ)
    (hm : IsNumber false maxRf (.fin m)) (hn : Count numRf n) (hm1 : 1 < m) (hn2 : 2 ≤ n)
    (axis : ℕ) (hax : axis = 0 ∨ axis = 1) :
    ∃ (lo hi : K) (rest : List (XF K)),
      Viewer.determineExtent axis g = .ok (.fin lo :: .fin hi :: rest) ∧
      g.rfArray.data.length = 2 * n - 1 ∧
      ∀ k < 2 * n - 1, ∃ l r : K,
        Viewer.rfLabel (.fin 1) (.fin m) (.fin (lo + (k + 1 / 2) * ((hi - lo) / (2 * n - 1)))) =
          .fin l ∧ g.rfArray.data[k]? = some (.fin r) ∧ |l - r| ≤ (m - 1) / (2 * n - 1) := by
  have hrf := C22_rf_array _ _ _ _ _ _ _ _ g hg m n hm hn
  obtain ⟨a, b, nx, c, d, ny, m', n', ⟨-, -, -, cx⟩, ⟨-, -, -, cy⟩, ⟨r1, r2, r3⟩, rfl⟩ :=
    (new_ok_iff ..).1 hg
  obtain rfl := isNumber_unique r1 hm
  obtain rfl := count_unique r3 hn
  obtain ⟨hlen, -, hmid, hends, h, h0, -, hval⟩ := hrf
  have hd : (0 : K) < (n' : K) - 1 := by
    have : (2 : K) ≤ n' := by exact_mod_cast hn2
    linarith
  have hh : h = (m - 1) / (n' - 1) := by
    have e1 := (hval (n' - 1) (by omega)).2
    rw [show n' - 1 - (n' - 1) = 0 by omega, (hends hn2).1] at e1
    have e2 : m = 1 + ((n' - 1 : ℕ) : K) * h := by
      have := Option.some.inj e1
      injection this
    rw [Nat.cast_sub (by omega), Nat.cast_one] at e2
    rw [eq_div_iff hd.ne']; linarith
  have hr0 : pyIndex (linspace (.fin 1) (.fin m) n') 0 = .ok (.fin 1) := by
    rw [linspace_fin _ _ hn2]
    unfold pyIndex
    rw [if_neg (by omega), Int.toNat_zero, List.getElem?_map, List.getElem?_range (by omega)]
    simp
  have hr1 : pyIndex (linspace (.fin 1) (.fin m) n') (-1) = .ok (.fin m) := by
    rw [pyIndex_last _ (linspace_ne_nil _ _ (by omega)), List.getLast_eq_getElem]
    have : (linspace (.fin 1) (.fin m) n')[(linspace (.fin 1) (.fin m) n').length - 1]? =
        some (.fin m) := by
      rw [linspace_length, linspace_fin _ _ hn2, List.getElem?_map,
        List.getElem?_range (by omega), Option.map_some, Nat.cast_sub (by omega), Nat.cast_one,
        mul_div_cancel₀ _ hd.ne']
      congr 2; ring
    rw [List.getElem?_eq_getElem (by rw [linspace_length]; omega)] at this
    rw [Option.some.inj this]
  have nz : ∀ (a b : XF K) {k : ℕ}, 1 ≤ k → ∃ x y, pyIndex (linspace a b k) 0 = .ok x ∧
      pyIndex (linspace a b k) (-1) = .ok y := by
    intro a b k hk
    obtain ⟨x, -, hx⟩ := pyIndex_nonneg (linspace a b k) 0 le_rfl (by rw [linspace_length]; omega)
    exact ⟨x, _, hx, pyIndex_last _ (linspace_ne_nil _ _ hk)⟩
  obtain ⟨x0, x1, hx0, hx1⟩ := nz a b cx.1
  obtain ⟨y0, y1, hy0, hy1⟩ := nz c d cy.1
  refine ⟨0, 2 * (m - 1), if axis = 0 then [x0, x1] else [y0, y1], ?_, hlen, ?_⟩
  · unfold Viewer.determineExtent
    simp only [gridOf]
    rw [hx0, ok_bind, hx1, ok_bind, hy0, ok_bind, hy1, ok_bind, hr0, ok_bind, hr1, ok_bind]
    rcases hax with rfl | rfl <;>
      simp [XF.sub, XF.neg, XF.add, XF.mul, sub_eq_add_neg]
  · intro k hk
    obtain ⟨l, hl1, hl2⟩ := column_label m hm1 n' k hn2 hk
    refine ⟨l, _, ?_, ?_, hl2⟩
    · rw [zero_add, sub_zero]; exact hl1
    · rcases Nat.lt_or_ge k (n' - 1) with hlt | hge
      · have := (hval (n' - 1 - k) (by omega)).2
        rw [show n' - 1 - (n' - 1 - k) = k by omega] at this
        rw [this, hh]
        congr 3
        rw [Nat.cast_sub (by omega), Nat.cast_sub (by omega), Nat.cast_one, abs_of_nonpos]
        · ring
        · have : (k : K) ≤ ((n' - 1 : ℕ) : K) := by exact_mod_cast hlt.le
          rw [Nat.cast_sub (by omega), Nat.cast_one] at this
          linarith
      · have := (hval (k - (n' - 1)) (by omega)).1
        rw [show n' - 1 + (k - (n' - 1)) = k by omega] at this
        rw [this, hh]
        congr 3
        rw [Nat.cast_sub (by omega), Nat.cast_sub (by omega), Nat.cast_one, abs_of_nonneg]
        have : ((n' - 1 : ℕ) : K) ≤ k := by exact_mod_cast hge
        rw [Nat.cast_sub (by omega), Nat.cast_one] at this
        linarith

/-! ## C71: the marks on the slice that is shown -/

omit [IsStrictOrderedRing K] in
/-- C71 (what holds of it): after an event every coordinate near the slice is marked, and if there is
none there are no marks; a new mark is the mark of such a coordinate. -/
theorem C71_marks_partial (v : Viewer K) (hv : Valid v) (cs : List (List (XF K)))
    (hcs : v.coordinates = some cs) :
    let w := (Viewer.update v).2
    (∀ c ∈ cs, Near w c → point v.axis c ∈ w.lines) ∧
    ((∀ c ∈ cs, ¬ Near w c) → w.lines = []) ∧
    (∀ q ∈ w.lines, q ∈ v.lines ∨ ∃ c ∈ cs, Near w c ∧ q = point v.axis c) ∧
    (v.lines = [] → ∀ q ∈ w.lines, ∃ c ∈ cs, Near w c ∧ q = point v.axis c) := by
  classical
  intro w
  obtain ⟨image, value, direction, lines, h, -, -, -, -, -, h2⟩ := update_valid v hv
  have hl : w.lines = if marks v = [] then [] else v.lines ++ marks v := by
    simp only [w, h]
    exact h2 (by rw [hcs]; simp)
  have hn : ∀ c, Near w c ↔ Near v c := by
    intro c
    simp only [w, h]
    exact Iff.rfl
  have hm : ∀ q, q ∈ marks v ↔ ∃ c ∈ cs, Near v c ∧ q = point v.axis c := by
    intro q
    unfold marks
    rw [hcs]
    simp only [Option.getD_some, List.mem_map, List.mem_filter, decide_eq_true_eq]
    constructor
    · rintro ⟨c, ⟨h1, h2⟩, rfl⟩; exact ⟨c, h1, h2, rfl⟩
    · rintro ⟨c, h1, h2, rfl⟩; exact ⟨c, ⟨h1, h2⟩, rfl⟩
  have hnew : ∀ q ∈ w.lines, q ∈ v.lines ∨ ∃ c ∈ cs, Near w c ∧ q = point v.axis c := by
    intro q hq
    rw [hl] at hq
    by_cases h0 : marks v = []
    · rw [if_pos h0] at hq; cases hq
    · rw [if_neg h0, List.mem_append] at hq
      rcases hq with hq | hq
      · exact Or.inl hq
      · obtain ⟨c, h1, h2, h3⟩ := (hm q).1 hq
        exact Or.inr ⟨c, h1, (hn c).2 h2, h3⟩
  refine ⟨?_, ?_, hnew, ?_⟩
  · intro c hc hnear
    have : point v.axis c ∈ marks v := (hm _).2 ⟨c, hc, (hn c).1 hnear, rfl⟩
    rw [hl, if_neg (fun h0 => by rw [h0] at this; cases this)]
    exact List.mem_append_right _ this
  · intro hnone
    rw [hl, if_pos]
    rw [List.eq_nil_iff_forall_not_mem]
    intro q hq
    obtain ⟨c, h1, h2, -⟩ := (hm q).1 hq
    exact hnone c h1 ((hn c).2 h2)
  · intro h0 q hq
    rcases hnew q hq with h1 | h1
    · rw [h0] at h1; cases h1
    · exact h1

/-- C71: a viewer that was just made shows exactly the marks of its slice. -/
theorem C71_first (axis masked index frozen : PyVal K) (cs : List (List (XF K)))
    (p p' : GProp K) (v : Viewer K) (hp : FitsGrid p)
    (h : Viewer.new axis masked index frozen (some cs) p = (.ok v, p')) :
    ∀ q, q ∈ v.lines ↔ ∃ c ∈ cs, Near v c ∧ q = point v.axis c := by
  obtain ⟨ax, data, v0, v1, hax, h0, h2, hd, hs, hu, hf⟩ := new_ok _ _ _ _ _ _ _ _ h
  obtain ⟨hd1, hd2, hd3⟩ := getData_ok _ _ _ _ hd
  obtain ⟨s1, s2, s3, s4, s5, s6, s7, s8, -, -, s9, -⟩ := start_ok _ _ _ _ _ _ hs
  have hti := isInteger_toInt hax
  have hvalid : Valid v0 := by
    refine ⟨by omega, ?_, s7, s8, by rw [s4]; exact s9⟩
    obtain ⟨a, b, c, h3, h4⟩ := vectorOf_fits p hp v0.axis (by omega)
    exact ⟨a, b, c, by rw [s2, hd1, hd3, h3], by rw [s3, h4]⟩
  obtain ⟨-, -, -, g4, -⟩ := update_good v0 hvalid
  obtain ⟨m1, -, -, m4⟩ := C71_marks_partial v0 hvalid cs s4
  rw [hu] at m1 m4 g4
  simp only at m1 m4 g4
  have key : ∀ q, q ∈ v1.lines ↔ ∃ c ∈ cs, Near v1 c ∧ q = point v1.axis c := by
    intro q
    rw [g4.axis]
    refine ⟨m4 s6 q, ?_⟩
    rintro ⟨c, h1, h2, rfl⟩
    exact m1 c h1 h2
  rcases hf with ⟨-, rfl⟩ | ⟨f, -, rfl⟩
  · exact key
  · exact key

/-- The last part of a history in which something is always near. -/
theorem last_part (N : ℕ → Prop) (M : ℕ → Prop) (hMN : ∀ j, M j → N j) (n : ℕ) :
    (∃ j ≤ n + 1, (∀ i, j ≤ i → i ≤ n + 1 → N i) ∧ M j) ↔
      N (n + 1) ∧ (M (n + 1) ∨ ∃ j ≤ n, (∀ i, j ≤ i → i ≤ n → N i) ∧ M j) := by
  constructor
  · rintro ⟨j, hj, h1, h2⟩
    refine ⟨h1 _ hj le_rfl, ?_⟩
    by_cases he : j = n + 1
    · left; rwa [← he]
    · right
      exact ⟨j, by omega, fun i hi hi' => h1 i hi (by omega), h2⟩
  · rintro ⟨h1, h2 | ⟨j, hj, h2, h3⟩⟩
    · exact ⟨n + 1, le_rfl, fun i hi hi' => by rwa [show i = n + 1 by omega], h2⟩
    · refine ⟨j, by omega, fun i hi hi' => ?_, h3⟩
      by_cases he : i = n + 1
      · rwa [he]
      · exact h2 i hi (by omega)

/-- C71, exactly: after any scroll events the axes show the marks of the slice and of the slices seen before it, back to
the last one on which no coordinate was near. -/
theorem C71_exact (axis masked index frozen : PyVal K) (cs : List (List (XF K)))
    (p p' : GProp K) (v : Viewer K) (hp : FitsGrid p)
    (h : Viewer.new axis masked index frozen (some cs) p = (.ok v, p')) (events : List String) (q : XF K × XF K) :
    q ∈ (scrolls events v).lines ↔ ∃ j ≤ events.length,
      (∀ i, j ≤ i → i ≤ events.length → ∃ c ∈ cs, Near (scrolls (events.take i) v) c) ∧
      ∃ c ∈ cs, Near (scrolls (events.take j) v) c ∧ q = point v.axis c := by
  classical
  obtain ⟨g1, g2, -, -, -, -, g7⟩ := new_good _ _ _ _ _ _ _ _ hp h
  induction events using List.reverseRecOn with
  | nil =>
    rw [show scrolls [] v = v from rfl, C71_first axis masked index frozen cs p p' v hp h q]
    constructor
    · rintro ⟨c, h1, h2, h3⟩
      exact ⟨0, le_rfl, fun i _ _ => ⟨c, h1, by rw [List.take_nil]; exact h2⟩, c, h1, h2, h3⟩
    · rintro ⟨j, -, -, c, h1, h2, h3⟩
      rw [List.take_nil] at h2
      exact ⟨c, h1, h2, h3⟩
  | append_singleton es e ih =>
    obtain ⟨w1, w2, w3, -⟩ := scrolls_good es v g1 g2
    have hstep : scrolls (es ++ [e]) v = (Viewer.onscroll e (scrolls es v)).2 := by
      simp only [scrolls, List.foldl_append, List.foldl_cons, List.foldl_nil]
    have hlen : (es ++ [e]).length = es.length + 1 := by simp
    have htake : ∀ i ≤ es.length, (es ++ [e]).take i = es.take i := fun i hi => List.take_append_of_le_length hi
    have hfull : (es ++ [e]).take (es.length + 1) = es ++ [e] := by rw [← hlen, List.take_length]
    rw [hlen, last_part (fun i => ∃ c ∈ cs, Near (scrolls ((es ++ [e]).take i) v) c)
      (fun j => ∃ c ∈ cs, Near (scrolls ((es ++ [e]).take j) v) c ∧ q = point v.axis c)
      (fun j ⟨c, h1, h2, _⟩ => ⟨c, h1, h2⟩), hfull]
    have hrest : (∃ j ≤ es.length, (∀ i, j ≤ i → i ≤ es.length → ∃ c ∈ cs, Near (scrolls ((es ++ [e]).take i) v) c) ∧
        ∃ c ∈ cs, Near (scrolls ((es ++ [e]).take j) v) c ∧ q = point v.axis c) ↔ q ∈ (scrolls es v).lines := by
      rw [ih]
      constructor
      · rintro ⟨j, hj, h1, c, h2, h3, h4⟩
        exact ⟨j, hj, fun i hi hi' => by have := h1 i hi hi'; rwa [htake i hi'] at this,
          c, h2, by rwa [htake j hj] at h3, h4⟩
      · rintro ⟨j, hj, h1, c, h2, h3, h4⟩
        exact ⟨j, hj, fun i hi hi' => by have := h1 i hi hi'; rwa [htake i hi'],
          c, h2, by rwa [htake j hj], h4⟩
    rw [hrest, hstep]
    have hw : (scrolls es v).coordinates = some cs := w3.coordinates.trans g7
    by_cases hf : (scrolls es v).frozen = true
    · have : Viewer.onscroll e (scrolls es v) = (.ok (), scrolls es v) := by
        unfold Viewer.onscroll
        rw [Meth.get_bind, if_pos hf]; rfl
      rw [this]
      constructor
      · intro hq
        refine ⟨?_, Or.inr hq⟩
        obtain ⟨j, hj, h1, -⟩ := ih.1 hq
        have := h1 es.length hj le_rfl
        rwa [List.take_length] at this
      · rintro ⟨-, ⟨c, h1, h2, h3⟩ | hq⟩
        · refine ih.2 ⟨es.length, le_rfl, fun i hi hi' => ?_, c, h1, ?_, h3⟩
          · rw [show i = es.length by omega, List.take_length]; exact ⟨c, h1, h2⟩
          · rw [List.take_length]; exact h2
        · exact hq
    · have hsc : 0 ≤ (scrolls es v).scrolled e ∧ (scrolls es v).scrolled e < (scrolls es v).sliceValues.length := by
        have := w1.low
        have := w1.high
        unfold Viewer.scrolled
        split_ifs <;> omega
      have hv' : Valid { scrolls es v with index := (scrolls es v).scrolled e } :=
        ⟨w1.axis, w1.shape, hsc.1, hsc.2, w1.coordinates⟩
      have hon : Viewer.onscroll e (scrolls es v) =
          Viewer.update { scrolls es v with index := (scrolls es v).scrolled e } := by
        unfold Viewer.onscroll
        rw [Meth.get_bind, if_neg hf, Meth.bind_apply, Meth.set_apply]
      rw [hon]
      obtain ⟨image, value, direction, lines, hu, -, -, -, -, -, hl⟩ := update_valid _ hv'
      rw [hu]
      have hl' := hl (by show (scrolls es v).coordinates ≠ none; rw [hw]; simp)
      have hm : ∀ q, q ∈ marks { scrolls es v with index := (scrolls es v).scrolled e } ↔
          ∃ c ∈ cs, Near { scrolls es v with index := (scrolls es v).scrolled e } c ∧ q = point v.axis c := by
        intro q
        unfold marks
        simp only [hw, Option.getD_some, List.mem_map, List.mem_filter, decide_eq_true_eq, w3.axis]
        constructor
        · rintro ⟨c, ⟨h1, h2⟩, rfl⟩; exact ⟨c, h1, h2, rfl⟩
        · rintro ⟨c, h1, h2, rfl⟩; exact ⟨c, ⟨h1, h2⟩, rfl⟩
      have hnear : ∀ c, Near { scrolls es v with
          index := (scrolls es v).scrolled e, image := image, title := (value, direction), lines := lines } c ↔
          Near { scrolls es v with index := (scrolls es v).scrolled e } c := fun _ => Iff.rfl
      simp only [hnear]
      show q ∈ lines ↔ _
      rw [hl', ← hm q]
      by_cases h0 : marks { scrolls es v with index := (scrolls es v).scrolled e } = []
      · rw [if_pos h0]
        constructor
        · intro hq; cases hq
        · rintro ⟨⟨c, h1, h2⟩, -⟩
          have := (hm (point v.axis c)).2 ⟨c, h1, h2, rfl⟩
          rw [h0] at this
          exact absurd this List.not_mem_nil
      · rw [if_neg h0, List.mem_append]
        constructor
        · intro hq
          refine ⟨?_, hq.symm⟩
          obtain ⟨r, hr⟩ := List.exists_mem_of_ne_nil _ h0
          obtain ⟨c, h1, h2, -⟩ := (hm r).1 hr
          exact ⟨c, h1, h2⟩
        · rintro ⟨-, hq⟩
          exact hq.symm

/-! ## Concrete cases -/

/-- A property on a grid of 2 × 3 × 3 points. -/
def Spec.cube18 : GProp ℚ :=
  ⟨.diskRadius, .eclipseDuration, smallGrid,
    ⟨[2, 3, 3], (List.range 18).map fun i => .fin i⟩, none, some (.fin 0), some (.fin 17), "viridis", 11⟩

example : FitsGrid cube18 := by unfold FitsGrid; decide +kernel

/-- Scrolling over a slice: up, up (at the end), down. -/
example : ∃ v p', Viewer.new (.int 0) (.bool false) (.int 0) (.bool false) none cube18 = (.ok v, p') ∧
    (scrolls ["up", "up"] v).index = 1 ∧ (scrolls ["up", "up"] v).title.1 = .fin 1 ∧
    (scrolls ["up", "up"] v).image = (List.range 9).map (fun i => .fin (i + 9)) ∧
    (scrolls ["up", "up", "down", "down"] v).index = 0 := by
  refine ⟨((Viewer.new (.int 0) (.bool false) (.int 0) (.bool false) none cube18).1.toOption).get
    (by decide +kernel), cube18, ?_⟩
  decide +kernel

/-- An Rf slice after the middle. -/
example : ∃ v p', Viewer.new (.int 2) (.bool true) .none (.bool false) none cube18 = (.ok v, p') ∧
    v.title = (.fin 1, none) ∧ (scrolls ["up"] v).title = (.fin 2, some .vertical) ∧
    (scrolls ["down"] v).title = (.fin 2, some .horizontal) := by
  refine ⟨((Viewer.new (.int 2) (.bool true) .none (.bool false) none cube18).1.toOption).get
    (by decide +kernel), cube18, ?_⟩
  decide +kernel

/-- C70 is false: with Rf from 1 to 3 a coordinate with Rf = 3 is marked where the axis says 2. -/
theorem C70_false : ∃ (g : GridParams ℚ) (p p' : GProp ℚ) (v : Viewer ℚ),
    GridParams.new (.int 0) (.int 1) (.int 3) (.int 0) (.int 1) (.int 2) (.int 3) (.int 2) = .ok g ∧
    p = { cube18 with params := g } ∧ FitsGrid p ∧
    Viewer.new (.int 0) (.bool false) (.int 0) (.bool false)
      (some [[.fin 0, .fin 1, .fin 3]]) p = (.ok v, p') ∧
    v.lines = [(.fin 3, .fin 1)] ∧
    Viewer.rfLabel (.fin 1) (.fin 3) (.fin (3 : ℚ)) = .fin 2 := by
  refine ⟨gridOf (.fin 0) (.fin 1) 3 (.fin 0) (.fin 1) 2 (.fin 3) 2,
    { cube18 with params := gridOf (.fin 0) (.fin 1) 3 (.fin 0) (.fin 1) 2 (.fin 3) 2 },
    { cube18 with params := gridOf (.fin 0) (.fin 1) 3 (.fin 0) (.fin 1) 2 (.fin 3) 2 },
    ((Viewer.new (.int 0) (.bool false) (.int 0) (.bool false) (some [[.fin 0, .fin 1, .fin 3]])
      { cube18 with
        params := gridOf (.fin 0) (.fin 1) 3 (.fin 0) (.fin 1) 2 (.fin 3) 2 }).1.toOption).get
    (by decide +kernel), ?_⟩
  unfold FitsGrid
  decide +kernel

/-- C71 is false: the mark of slice 0 stays when the viewer scrolls to slice 1, where another
coordinate is marked. -/
theorem C71_false : ∃ (p' : GProp ℚ) (v : Viewer ℚ),
    Viewer.new (.int 0) (.bool false) (.int 0) (.bool false)
      (some [[.fin 0, .fin 1, .fin 2], [.fin 1, .fin 0, .fin 1]]) cube18 = (.ok v, p') ∧
    v.lines = [(.fin 2, .fin 1)] ∧
    (scrolls ["up"] v).index = 1 ∧
    (scrolls ["up"] v).lines = [(.fin 2, .fin 1), (.fin 1, .fin 0)] ∧
    ¬ Near (scrolls ["up"] v) [.fin 0, .fin 1, .fin 2] := by
  refine ⟨cube18, ((Viewer.new (.int 0) (.bool false) (.int 0) (.bool false)
      (some [[.fin 0, .fin 1, .fin 2], [.fin 1, .fin 0, .fin 1]]) cube18).1.toOption).get
    (by decide +kernel), by decide +kernel, by decide +kernel, by decide +kernel,
    by decide +kernel, ?_⟩
  rintro ⟨s, x, h1, h2, h3⟩
  have e1 : s = .fin 1 := by
    have : (scrolls ["up"] (((Viewer.new (.int 0) (.bool false) (.int 0) (.bool false)
      (some [[.fin 0, .fin 1, .fin 2], [.fin 1, .fin 0, .fin 1]]) cube18).1.toOption).get
      (by decide +kernel))).sliceValues[(scrolls ["up"] (((Viewer.new (.int 0) (.bool false)
        (.int 0) (.bool false) (some [[.fin 0, .fin 1, .fin 2], [.fin 1, .fin 0, .fin 1]])
        cube18).1.toOption).get (by decide +kernel))).index.toNat]? = some (.fin 1) := by
      decide +kernel
    rw [this] at h1
    exact (Option.some.inj h1).symm
  have e2 : x = .fin 0 := by
    have : ([.fin 0, .fin 1, .fin 2] : List (XF ℚ))[(scrolls ["up"] (((Viewer.new (.int 0)
        (.bool false) (.int 0) (.bool false)
        (some [[.fin 0, .fin 1, .fin 2], [.fin 1, .fin 0, .fin 1]])
        cube18).1.toOption).get (by decide +kernel))).axis]? = some (.fin 0) := by
      decide +kernel
    rw [this] at h2
    exact (Option.some.inj h2).symm
  rw [less_iff, e1, e2] at h3
  revert h3
  decide +kernel

end Beyonce
