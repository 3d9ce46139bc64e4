import Verif.ViewerRounded
import Verif.Props.Viewer
import Verif.Props.GridRounded

/-!
# Property C128: on which slices a coordinate is marked, in floating point
-/

set_option linter.unusedSectionVars false

namespace Beyonce
open Spec
section
variable {K : Type} [Field K] [LinearOrder K] (rnd : K → K)

/-- A coordinate is near the slice that is shown, as computed. -/
def Spec.NearR (v : Viewer K) (c : List (XF K)) : Prop :=
  ∃ s x, v.sliceValues[v.index.toNat]? = some s ∧ c[v.axis]? = some x ∧
    Less ((s.sub x).round rnd).abs v.tolerance

/-! ## One update -/

theorem markR_eq (v : Viewer K) (hv : Valid v) (c : List (XF K)) (hc : c.length = 3) :
    (NearR rnd v c ∧ ViewerRounded.mark rnd v c = .ok (some (point v.axis c))) ∨ (¬ NearR rnd v c ∧ ViewerRounded.mark rnd v c = .ok none) := by
  obtain ⟨s, hs, hs'⟩ := pyIndex_nonneg v.sliceValues v.index hv.low hv.high
  have hax := hv.axis
  obtain ⟨x, hx, hx'⟩ := pyIndex_nonneg c (v.axis : ℤ) (by omega) (by omega)
  rw [Int.toNat_natCast] at hx
  have hm : markOf c v.axis = .ok (point v.axis c) := by
    obtain ⟨y, x, r, rfl⟩ : ∃ y x r, c = [y, x, r] := by
      match c, hc with
      | [y, x, r], _ => exact ⟨y, x, r, rfl⟩
    obtain h | h | h : v.axis = 0 ∨ v.axis = 1 ∨ v.axis = 2 := by omega
    all_goals rw [h]; rfl
  have hn : NearR rnd v c ↔ XF.lt ((s.sub x).round rnd).abs v.tolerance = true := by
    constructor
    · rintro ⟨s', x', h1, h2, h3⟩
      rw [hs] at h1; rw [hx] at h2
      cases h1; cases h2
      exact (less_iff _ _).1 h3
    · intro h
      exact ⟨s, x, hs, hx, (less_iff _ _).2 h⟩
  unfold ViewerRounded.mark
  simp only [hs', hx', bind, Except.bind, hm]
  by_cases h : XF.lt ((s.sub x).round rnd).abs v.tolerance = true
  · left; exact ⟨hn.2 h, by rw [if_pos h]⟩
  · right; exact ⟨fun h' => h (hn.1 h'), by rw [if_neg h]⟩

open Classical in
/-- The marks of the slice that is shown. -/
noncomputable def Spec.marksR (v : Viewer K) : List (XF K × XF K) :=
  ((v.coordinates.getD []).filter fun c => decide (NearR rnd v c)).map (point v.axis)

theorem nearR_lines (v : Viewer K) (l : List (XF K × XF K)) (c : List (XF K)) :
    NearR rnd { v with lines := l } c ↔ NearR rnd v c := Iff.rfl

open Classical in
theorem plotLoopR_eq (cs : List (List (XF K))) (b : Bool) (v : Viewer K) (hv : Valid v)
    (hc : ∀ c ∈ cs, c.length = 3) :
    ViewerRounded.plotLoop rnd cs b v =
      (.ok (b || cs.any fun c => decide (NearR rnd v c)),
       { v with
         lines := v.lines ++ (cs.filter fun c => decide (NearR rnd v c)).map (point v.axis) }) := by
  induction cs generalizing b v with
  | nil => simp [ViewerRounded.plotLoop]
  | cons c cs ih =>
    have hcs : ∀ c ∈ cs, c.length = 3 := fun c h => hc c (List.mem_cons_of_mem _ h)
    unfold ViewerRounded.plotLoop
    rw [Meth.get_bind]
    rcases markR_eq rnd v hv c (hc c List.mem_cons_self) with ⟨hn, hm⟩ | ⟨hn, hm⟩
    · rw [hm, Meth.lift_ok_bind]
      simp only [Meth.modify_bind]
      rw [ih true { v with lines := v.lines ++ [point v.axis c] }
        ⟨hv.axis, hv.shape, hv.low, hv.high, hv.coordinates⟩ hcs]
      simp only [nearR_lines]
      simp [hn]
    · rw [hm, Meth.lift_ok_bind]
      simp only
      rw [ih b v hv hcs]
      simp [hn]

/-- The state after `update`: only the image, the lines and the title change. -/
theorem updateR_valid (v : Viewer K) (hv : Valid v) :
    ∃ image value direction lines,
      ViewerRounded.update rnd v = (.ok (), { v with
        image := image
        title := (value, direction)
        lines := lines }) ∧
      ShowsSlice v.data v.axis v.index.toNat image ∧
      v.sliceValues[v.index.toNat]? = some value ∧
      (direction = some .horizontal ↔ v.axis = 2 ∧ v.index < (v.sliceValues.length / 2 : ℕ)) ∧
      (direction = some .vertical ↔ v.axis = 2 ∧ (v.sliceValues.length / 2 : ℕ) < v.index) ∧
      (v.coordinates = none → lines = v.lines) ∧
      (v.coordinates ≠ none → lines = if marksR rnd v = [] then [] else v.lines ++ marksR rnd v) := by
  classical
  obtain ⟨a, b, c, hs, hl⟩ := hv.shape
  obtain ⟨image, hi, hshow⟩ := npTake_shows v.data v.axis v.index a b c hs hv.axis hv.low
    (by rw [← hl]; exact hv.high)
  obtain ⟨value, hval, hval'⟩ := pyIndex_nonneg v.sliceValues v.index hv.low hv.high
  -- the lines
  obtain ⟨lines, hlines, hl1, hl2⟩ : ∃ lines,
      ViewerRounded.plotCoordinates rnd { v with image := image } =
        (.ok (), { v with image := image, lines := lines }) ∧
      (v.coordinates = none → lines = v.lines) ∧
      (v.coordinates ≠ none → lines = if marksR rnd v = [] then [] else v.lines ++ marksR rnd v) := by
    unfold ViewerRounded.plotCoordinates
    rw [Meth.get_bind]
    cases hco : v.coordinates with
    | none =>
      refine ⟨v.lines, ?_, fun _ => rfl, fun h => absurd rfl h⟩
      simp only
      rw [← hco]
      rfl
    | some cs =>
      have hv' : Valid { v with image := image } :=
        ⟨hv.axis, hv.shape, hv.low, hv.high, hv.coordinates⟩
      have hnear : ∀ c, NearR rnd { v with image := image } c ↔ NearR rnd v c := fun _ => Iff.rfl
      have hm : marksR rnd v = (cs.filter fun c => decide (NearR rnd v c)).map (point v.axis) := by
        unfold marksR; rw [hco]; rfl
      simp only
      rw [Meth.bind_apply, ← hco, show ({ v with image := image } : Viewer K) =
        { v with image := image } from rfl]
      rw [plotLoopR_eq rnd cs false _ hv' (hv.coordinates cs hco)]
      simp only [hnear, Bool.false_or]
      by_cases hany : (cs.any fun c => decide (NearR rnd v c)) = true
      · rw [if_pos hany]
        refine ⟨v.lines ++ marksR rnd v, (by rw [hm]; rfl), (fun h => by rw [hco] at h; cases h), fun _ => ?_⟩
        rw [if_neg]
        rw [hm]
        obtain ⟨c, h1, h2⟩ := List.any_eq_true.1 hany
        intro h
        have h3 := List.map_eq_nil_iff.1 h
        have : c ∈ cs.filter fun c => decide (NearR rnd v c) := List.mem_filter.2 ⟨h1, h2⟩
        rw [h3] at this
        cases this
      · rw [if_neg hany]
        refine ⟨[], rfl, (fun h => by rw [hco] at h; cases h), fun _ => ?_⟩
        rw [if_pos]
        rw [hm]
        have : (cs.filter fun c => decide (NearR rnd v c)) = [] := by
          rw [List.filter_eq_nil_iff]
          intro c hc h
          exact hany (List.any_eq_true.2 ⟨c, hc, h⟩)
        rw [this]; rfl
  refine ⟨image, value, if v.axis = 2 then
      if v.index < ((v.sliceValues.length / 2 : ℕ) : ℤ) then some .horizontal
      else if ((v.sliceValues.length / 2 : ℕ) : ℤ) < v.index then some .vertical else none
    else none, lines, ?_, hshow, hval, ?_, ?_, hl1, hl2⟩
  · unfold ViewerRounded.update
    rw [Meth.get_bind, hi, Meth.lift_ok_bind, Meth.modify_bind, Meth.bind_apply, hlines]
    simp only
    unfold Viewer.updateTitle
    rw [Meth.get_bind]
    simp only [hval', Meth.lift_ok_bind]
    rfl
  · by_cases h2 : v.axis = 2
    · rw [if_pos h2]
      by_cases h3 : v.index < ((v.sliceValues.length / 2 : ℕ) : ℤ)
      · rw [if_pos h3]; exact ⟨fun _ => ⟨h2, h3⟩, fun _ => rfl⟩
      · rw [if_neg h3]
        by_cases h4 : ((v.sliceValues.length / 2 : ℕ) : ℤ) < v.index
        · rw [if_pos h4]
          constructor
          · intro h; cases h
          · intro h; exact absurd h.2 h3
        · rw [if_neg h4]
          constructor
          · intro h; cases h
          · intro h; exact absurd h.2 h3
    · rw [if_neg h2]
      constructor
      · intro h; cases h
      · intro h; exact absurd h.1 h2
  · by_cases h2 : v.axis = 2
    · rw [if_pos h2]
      by_cases h3 : v.index < ((v.sliceValues.length / 2 : ℕ) : ℤ)
      · rw [if_pos h3]
        constructor
        · intro h; cases h
        · intro h; exact absurd h.2 (by omega)
      · rw [if_neg h3]
        by_cases h4 : ((v.sliceValues.length / 2 : ℕ) : ℤ) < v.index
        · rw [if_pos h4]; exact ⟨fun _ => ⟨h2, h4⟩, fun _ => rfl⟩
        · rw [if_neg h4]
          constructor
          · intro h; cases h
          · intro h; exact absurd h.2 h4
    · rw [if_neg h2]
      constructor
      · intro h; cases h
      · intro h; exact absurd h.1 h2

variable [IsStrictOrderedRing K]

/-- What `start` builds. -/
theorem startR_ok (data : Nd K) (g : GridParams K) (axis index : PyVal K)
    (coordinates : Option (List (List (XF K)))) (v : Viewer K)
    (h : ViewerRounded.start rnd data g axis index coordinates = .ok v) :
    v.axis = axis.toInt.toNat ∧ v.data = data ∧ v.sliceValues = Viewer.vectorOf g v.axis ∧
    v.coordinates = coordinates ∧ v.frozen = false ∧ v.lines = [] ∧
    0 ≤ v.index ∧ v.index < v.sliceValues.length ∧
    (index = .none → v.index = (v.sliceValues.length / 2 : ℕ)) ∧
    (index ≠ .none → IsInteger index v.index) ∧
    (∀ cs, coordinates = some cs → ∀ c ∈ cs, c.length = 3) ∧
    ∃ s0 s1, v.sliceValues[0]? = some s0 ∧ v.sliceValues[1]? = some s1 ∧
      v.tolerance = ((((s1.sub s0).round rnd).abs).div (.fin 3)).round rnd := by
  unfold ViewerRounded.start at h
  simp only at h
  generalize hvals : Viewer.vectorOf g axis.toInt.toNat = values at h
  cases h1 : Viewer.indexOf index values.length with
  | error e => rw [h1, error_bind] at h; cases h
  | ok i =>
  rw [h1, ok_bind] at h
  cases h2 : Viewer.checkCoordinates coordinates with
  | error e => rw [h2, error_bind] at h; cases h
  | ok u =>
  rw [h2, ok_bind] at h
  cases h3 : ViewerRounded.toleranceOf rnd values with
  | error e => rw [h3, error_bind] at h; cases h
  | ok t =>
  rw [h3, ok_bind] at h
  cases h4 : Viewer.noBool i with
  | error e => rw [h4, error_bind] at h; cases h
  | ok u =>
  rw [h4, ok_bind] at h
  cases h5 : pyIndex values i.toInt with
  | error e => rw [h5, error_bind] at h; cases h
  | ok s =>
  rw [h5, ok_bind] at h
  cases h6 : ViewerRounded.determineExtent rnd axis.toInt.toNat g with
  | error e => rw [h6, error_bind] at h; cases h
  | ok u =>
  rw [h6, ok_bind] at h
  cases h7 : Viewer.noBool axis with
  | error e => rw [h7, error_bind] at h; cases h
  | ok u =>
  rw [h7, ok_bind] at h
  cases h8 : npTake data i.toInt axis.toInt.toNat with
  | error e => rw [h8, error_bind] at h; cases h
  | ok u =>
  rw [h8, ok_bind] at h
  cases h
  unfold Viewer.indexOf at h1
  obtain ⟨rfl, n, hn, hn0, hn1⟩ := (number_between _ _ _).1 h1
  have hti := isInteger_toInt hn
  refine ⟨rfl, rfl, hvals.symm, rfl, rfl, rfl, ?_, ?_, ?_, ?_, ?_, ?_⟩
  · simp only; omega
  · simp only; omega
  · intro hi; simp only [hi, if_true]; rfl
  · intro hi
    rw [if_neg hi] at hn hti
    simp only [if_neg hi]
    rw [hti]; exact hn
  · intro cs hcs c hc
    subst hcs
    unfold Viewer.checkCoordinates at h2
    simp only at h2
    by_cases hall : (cs.all fun c => decide (c.length = 3)) = true
    · have := List.all_eq_true.1 hall c hc
      simpa using this
    · rw [if_neg hall] at h2; cases h2
  · unfold ViewerRounded.toleranceOf at h3
    cases h9 : pyIndex values 1 with
    | error e => rw [h9, error_bind] at h3; cases h3
    | ok b =>
    rw [h9, ok_bind] at h3
    cases h10 : pyIndex values 0 with
    | error e => rw [h10, error_bind] at h3; cases h3
    | ok a =>
    rw [h10, ok_bind] at h3
    cases h3
    refine ⟨a, b, ?_, ?_, rfl⟩
    · unfold pyIndex at h10
      cases hv : values[0]? with
      | none => simp [hv] at h10
      | some w => simpa [hv] using h10
    · unfold pyIndex at h9
      cases hv : values[1]? with
      | none => simp [hv] at h9
      | some w => simpa [hv] using h9

theorem newRV_ok (axis masked index frozen : PyVal K)
    (coordinates : Option (List (List (XF K)))) (p p' : GProp K) (v : Viewer K)
    (h : ViewerRounded.new rnd axis masked index frozen coordinates p = (.ok v, p')) :
    ∃ (ax : ℤ) (data : Nd K) (v0 v1 : Viewer K), IsInteger axis ax ∧ 0 ≤ ax ∧ ax ≤ 2 ∧
      GProp.getData masked p = (.ok data, p') ∧
      ViewerRounded.start rnd data p.params axis index coordinates = .ok v0 ∧
      ViewerRounded.update rnd v0 = (.ok (), v1) ∧
      ((frozen = .none ∧ v = v1) ∨ ∃ f, frozen = .bool f ∧ v = { v1 with frozen := f }) := by
  unfold ViewerRounded.new at h
  cases h1 : number axis (.bool true) (.int 0) (.int 2) with
  | error e => rw [h1] at h; cases h
  | ok ax =>
  obtain ⟨rfl, n, hn, hn0, hn1⟩ := (number_between _ _ _).1 h1
  rw [h1, Meth.lift_ok_bind, Meth.bind_apply] at h
  generalize h2 : GProp.getData masked p = q at h
  obtain ⟨(e | data), p1⟩ := q
  · cases h
  simp only [Meth.get_bind] at h
  obtain ⟨-, hpar, -⟩ := getData_ok _ _ _ _ h2
  rw [hpar] at h
  cases h3 : ViewerRounded.start rnd data p.params ax index coordinates with
  | error e => rw [h3] at h; cases h
  | ok v0 =>
  rw [h3, Meth.lift_ok_bind] at h
  unfold ViewerRounded.finish at h
  generalize h4 : ViewerRounded.update rnd v0 = q at h
  obtain ⟨(e | u), v1⟩ := q
  · cases h
  simp only at h
  by_cases hf : frozen = .none
  · rw [if_pos hf] at h
    cases h
    exact ⟨n, data, v0, v, hn, hn0, hn1, rfl, h3, h4, Or.inl ⟨hf, rfl⟩⟩
  · rw [if_neg hf] at h
    cases hb : boolean frozen with
    | error e => rw [hb] at h; cases h
    | ok b =>
      have hv : frozen = .bool b := by
        cases frozen <;> simp_all [boolean, classObject, isinstance, bind, Except.bind]
      rw [hb, ok_bind] at h
      cases h
      exact ⟨n, data, v0, v1, hn, hn0, hn1, rfl, h3, h4, Or.inr ⟨b, hv, rfl⟩⟩

theorem updateR_good (v : Viewer K) (hv : Valid v) :
    (ViewerRounded.update rnd v).1 = .ok () ∧ Valid (ViewerRounded.update rnd v).2 ∧ InSync (ViewerRounded.update rnd v).2 ∧
    SameCube v (ViewerRounded.update rnd v).2 ∧ (ViewerRounded.update rnd v).2.index = v.index := by
  obtain ⟨image, value, direction, lines, h, h1, h2, h3, h4, -, -⟩ := updateR_valid rnd v hv
  rw [h]
  exact ⟨rfl, ⟨hv.axis, hv.shape, hv.low, hv.high, hv.coordinates⟩, ⟨h1, h2, h3, h4⟩,
    ⟨rfl, rfl, rfl, rfl, rfl, rfl⟩, rfl⟩

/-- A sequence of scroll events. -/
def Spec.scrollsR (events : List String) (v : Viewer K) : Viewer K :=
  events.foldl (fun v e => (ViewerRounded.onscroll rnd e v).2) v

/-- The marks after an event or when the viewer is made. -/
structure Spec.MarkedR (v : Viewer K) (cs : List (List (XF K))) : Prop where
  valid : Valid v
  sync : InSync v
  coordinates : v.coordinates = some cs
  all : ∀ c ∈ cs, NearR rnd v c → point v.axis c ∈ v.lines
  none : (∀ c ∈ cs, ¬ NearR rnd v c) → v.lines = []

theorem mem_marksR (v : Viewer K) (cs : List (List (XF K))) (hcs : v.coordinates = some cs) (q : XF K × XF K) :
    q ∈ marksR rnd v ↔ ∃ c ∈ cs, NearR rnd v c ∧ q = point v.axis c := by
  classical
  unfold marksR
  rw [hcs]
  simp only [Option.getD_some, List.mem_map, List.mem_filter, decide_eq_true_eq]
  constructor
  · rintro ⟨c, ⟨h1, h2⟩, rfl⟩; exact ⟨c, h1, h2, rfl⟩
  · rintro ⟨c, h1, h2, rfl⟩; exact ⟨c, ⟨h1, h2⟩, rfl⟩

theorem updateR_marked (v : Viewer K) (hv : Valid v) (cs : List (List (XF K))) (hcs : v.coordinates = some cs) :
    MarkedR rnd (ViewerRounded.update rnd v).2 cs ∧
    (v.lines = [] → ∀ q ∈ (ViewerRounded.update rnd v).2.lines, ∃ c ∈ cs,
      NearR rnd (ViewerRounded.update rnd v).2 c ∧ q = point v.axis c) := by
  classical
  obtain ⟨-, g2, g3, g4, -⟩ := updateR_good rnd v hv
  obtain ⟨image, value, direction, lines, h, -, -, -, -, -, h2⟩ := updateR_valid rnd v hv
  have hl := h2 (by rw [hcs]; simp)
  have hn : ∀ c, NearR rnd (ViewerRounded.update rnd v).2 c ↔ NearR rnd v c := by
    intro c; rw [h]; exact Iff.rfl
  have hlines : (ViewerRounded.update rnd v).2.lines = lines := by rw [h]
  refine ⟨⟨g2, g3, g4.coordinates.trans hcs, ?_, ?_⟩, ?_⟩
  · intro c hc hnear
    have hm : point v.axis c ∈ marksR rnd v := (mem_marksR rnd v cs hcs _).2 ⟨c, hc, (hn c).1 hnear, rfl⟩
    rw [g4.axis, hlines, hl, if_neg (fun h0 => by rw [h0] at hm; cases hm)]
    exact List.mem_append_right _ hm
  · intro hnone
    rw [hlines, hl, if_pos]
    rw [List.eq_nil_iff_forall_not_mem]
    intro q hq
    obtain ⟨c, h1, h2, -⟩ := (mem_marksR rnd v cs hcs q).1 hq
    exact hnone c h1 ((hn c).2 h2)
  · intro h0 q hq
    rw [hlines, hl, h0] at hq
    by_cases hm : marksR rnd v = []
    · rw [if_pos hm] at hq; cases hq
    · rw [if_neg hm, List.nil_append] at hq
      obtain ⟨c, h1, h2, h3⟩ := (mem_marksR rnd v cs hcs q).1 hq
      exact ⟨c, h1, (hn c).2 h2, h3⟩

theorem onscrollR_marked (v : Viewer K) (cs : List (List (XF K))) (hm : MarkedR rnd v cs) (e : String) :
    MarkedR rnd (ViewerRounded.onscroll rnd e v).2 cs ∧ SameCube v (ViewerRounded.onscroll rnd e v).2 := by
  have hv := hm.valid
  have h1 := hv.low
  have h2 := hv.high
  by_cases hf : v.frozen = true
  · have hw : ViewerRounded.onscroll rnd e v = (.ok (), v) := by
      unfold ViewerRounded.onscroll
      rw [Meth.get_bind, if_pos hf]; rfl
    rw [hw]
    exact ⟨hm, .refl v⟩
  · have hsc : 0 ≤ v.scrolled e ∧ v.scrolled e < v.sliceValues.length := by
      unfold Viewer.scrolled
      split_ifs <;> omega
    have hv' : Valid { v with index := v.scrolled e } := ⟨hv.axis, hv.shape, hsc.1, hsc.2, hv.coordinates⟩
    have hw : ViewerRounded.onscroll rnd e v = ViewerRounded.update rnd { v with index := v.scrolled e } := by
      unfold ViewerRounded.onscroll
      rw [Meth.get_bind, if_neg hf, Meth.bind_apply, Meth.set_apply]
    rw [hw]
    obtain ⟨-, -, -, g4, -⟩ := updateR_good rnd { v with index := v.scrolled e } hv'
    exact ⟨(updateR_marked rnd _ hv' cs hm.coordinates).1,
      ⟨g4.axis, g4.data, g4.values, g4.coordinates, g4.tolerance, g4.frozen⟩⟩

theorem scrollsR_marked (cs : List (List (XF K))) : ∀ (events : List String) (v : Viewer K), MarkedR rnd v cs →
    MarkedR rnd (scrollsR rnd events v) cs ∧ SameCube v (scrollsR rnd events v)
  | [], v, h => ⟨h, .refl v⟩
  | e :: es, v, h => by
    obtain ⟨h1, h2⟩ := onscrollR_marked rnd v cs h e
    obtain ⟨i1, i2⟩ := scrollsR_marked cs es _ h1
    exact ⟨i1, h2.trans i2⟩

/-- A viewer that was made. -/
theorem newRV_marked (axis masked index frozen : PyVal K) (cs : List (List (XF K)))
    (p p' : GProp K) (v : Viewer K) (hp : FitsGrid p)
    (h : ViewerRounded.new rnd axis masked index frozen (some cs) p = (.ok v, p')) :
    MarkedR rnd v cs ∧ IsInteger axis v.axis ∧ v.sliceValues = Viewer.vectorOf p.params v.axis ∧
    (∀ q ∈ v.lines, ∃ c ∈ cs, NearR rnd v c ∧ q = point v.axis c) ∧
    ∃ s0 s1, v.sliceValues[0]? = some s0 ∧ v.sliceValues[1]? = some s1 ∧
      v.tolerance = ((((s1.sub s0).round rnd).abs).div (.fin 3)).round rnd := by
  obtain ⟨ax, data, v0, v1, hax, h0, h2, hd, hs, hu, hf⟩ := newRV_ok _ _ _ _ _ _ _ _ _ h
  obtain ⟨hd1, hd2, hd3⟩ := getData_ok _ _ _ _ hd
  obtain ⟨s1, s2, s3, s4, s5, s6, s7, s8, -, -, s9, s10⟩ := startR_ok _ _ _ _ _ _ _ hs
  have hti := isInteger_toInt hax
  have haxis : (v0.axis : ℤ) = ax := by rw [s1, hti]; omega
  have hvalid : Valid v0 := by
    refine ⟨by omega, ?_, s7, s8, by rw [s4]; exact s9⟩
    obtain ⟨a, b, c, h3, h4⟩ := vectorOf_fits p hp v0.axis (by omega)
    exact ⟨a, b, c, by rw [s2, hd1, hd3, h3], by rw [s3, h4]⟩
  obtain ⟨-, -, -, g4, -⟩ := updateR_good rnd v0 hvalid
  obtain ⟨m1, m2⟩ := updateR_marked rnd v0 hvalid cs s4
  rw [hu] at g4 m1 m2
  simp only at g4 m1 m2
  have hq := m2 s6
  rw [← g4.axis] at hq
  rw [← g4.axis] at haxis
  rw [← g4.values, ← g4.tolerance] at s10
  have hsv : v1.sliceValues = Viewer.vectorOf p.params v1.axis := by rw [g4.values, s3, g4.axis]
  rcases hf with ⟨hf, rfl⟩ | ⟨f, hf, rfl⟩
  · exact ⟨m1, by rw [haxis]; exact hax, hsv, hq, s10⟩
  · refine ⟨⟨⟨m1.valid.axis, m1.valid.shape, m1.valid.low, m1.valid.high, m1.valid.coordinates⟩,
      ⟨m1.sync.image, m1.sync.value, m1.sync.horizontal, m1.sync.vertical⟩, m1.coordinates, m1.all, m1.none⟩,
      ?_, hsv, hq, s10⟩
    show IsInteger axis v1.axis
    rw [haxis]; exact hax

/-! ## A third of the distance of two slices -/

theorem third {u : K} (hr : Rounds rnd u) (hu : 0 ≤ u) (hu1 : 1000 * u ≤ 1) {s x a b h E : K} (hE : 0 ≤ E)
    (hfine : 1000 * E ≤ h) (hh : 0 < h) (hab : |(|b - a| - h)| ≤ 2 * E) :
    (|rnd (s - x)| < rnd (|rnd (b - a)| / 3) → |s - x| ≤ 34 / 100 * h) ∧
    (|s - x| ≤ 33 / 100 * h → |rnd (s - x)| < rnd (|rnd (b - a)| / 3)) := by
  have rel : ∀ y : K, (1 - u) * |y| ≤ |rnd y| ∧ |rnd y| ≤ (1 + u) * |y| := by
    intro y
    have h1 := abs_le.1 ((abs_abs_sub_abs_le (rnd y) y).trans (hr y))
    constructor <;> linarith [h1.1, h1.2]
  have hS := abs_le.1 hab
  have hS0 : 0 ≤ |b - a| := abs_nonneg _
  obtain ⟨d1, d2⟩ := rel (b - a)
  obtain ⟨x1, x2⟩ := rel (s - x)
  have hD0 : 0 ≤ |rnd (b - a)| := abs_nonneg _
  have ht := abs_le.1 (hr (|rnd (b - a)| / 3))
  rw [abs_of_nonneg (show 0 ≤ |rnd (b - a)| / 3 by linarith)] at ht
  have hx0 : 0 ≤ |s - x| := abs_nonneg _
  generalize |b - a| = S at *
  generalize |rnd (b - a)| = D at *
  generalize |s - x| = X at *
  generalize |rnd (s - x)| = Y at *
  generalize rnd (D / 3) = T at *
  have e1 : u * S ≤ S / 1000 := by nlinarith
  have e2 : u * D ≤ D / 1000 := by nlinarith
  have e3 : u * X ≤ X / 1000 := by nlinarith
  have e4 : u * (D / 3) = u * D / 3 := by ring
  rw [e4] at ht
  constructor <;> intro h' <;> linarith [ht.1, ht.2, hS.1, hS.2]

/-- The values of slices, each near its place. -/
structure Spec.SlicePlaces (l : List (XF K)) (place : ℕ → ℕ) (a h E : K) : Prop where
  finite : ∀ i < l.length, ∃ v, l[i]? = some (.fin v)
  near : ∀ (i : ℕ) (v : K), l[i]? = some (.fin v) → |v - (a + place i * h)| ≤ E
  steps : (place 1 : ℤ) - place 0 = 1 ∨ (place 0 : ℤ) - place 1 = 1

theorem nearR_third {u : K} (hr : Rounds rnd u) (hu : 0 ≤ u) (hu1 : 1000 * u ≤ 1) {a h E : K} {place : ℕ → ℕ}
    (hE : 0 ≤ E) (hfine : 1000 * E ≤ h) (hh : 0 < h) (v : Viewer K) (hl : SlicePlaces v.sliceValues place a h E)
    {s0 s1 : XF K} (h0 : v.sliceValues[0]? = some s0) (h1 : v.sliceValues[1]? = some s1)
    (ht : v.tolerance = ((((s1.sub s0).round rnd).abs).div (.fin 3)).round rnd) (c : List (XF K)) (s : K)
    (hs : v.sliceValues[v.index.toNat]? = some (.fin s)) :
    (NearR rnd v c → ∃ x, c[v.axis]? = some (.fin x) ∧ |s - x| ≤ 34 / 100 * h) ∧
    (∀ x, c[v.axis]? = some (.fin x) → |s - x| ≤ 33 / 100 * h → NearR rnd v c) := by
  have hlen : 1 < v.sliceValues.length := by
    by_contra hc
    rw [List.getElem?_eq_none (by omega)] at h1
    cases h1
  obtain ⟨p, hp⟩ := hl.finite 0 (by omega)
  obtain ⟨q, hq⟩ := hl.finite 1 hlen
  rw [h0] at hp; rw [h1] at hq
  cases hp; cases hq
  have htol : v.tolerance = .fin (rnd (|rnd (q - p)| / 3)) := by
    rw [ht]
    simp [XF.sub, XF.neg, XF.add, XF.round, XF.abs, XF.div, sub_eq_add_neg]
  have hab : |(|q - p| - h)| ≤ 2 * E := by
    have n0 := abs_le.1 (hl.near 0 p h0)
    have n1 := abs_le.1 (hl.near 1 q h1)
    rcases hl.steps with st | st
    · have e : (place 1 : K) = place 0 + 1 := by
        have : place 1 = place 0 + 1 := by omega
        rw [this]; push_cast; ring
      rw [e] at n1
      have hpos : 0 ≤ q - p := by linarith [n0.1, n0.2, n1.1, n1.2]
      rw [abs_of_nonneg hpos, abs_le]
      constructor <;> linarith [n0.1, n0.2, n1.1, n1.2]
    · have e : (place 0 : K) = place 1 + 1 := by
        have : place 0 = place 1 + 1 := by omega
        rw [this]; push_cast; ring
      rw [e] at n0
      have hneg : q - p ≤ 0 := by linarith [n0.1, n0.2, n1.1, n1.2]
      rw [abs_of_nonpos hneg, abs_le]
      constructor <;> linarith [n0.1, n0.2, n1.1, n1.2]
  have key : ∀ x : K, Less (((XF.fin s).sub (.fin x)).round rnd).abs v.tolerance ↔
      |rnd (s - x)| < rnd (|rnd (q - p)| / 3) := by
    intro x
    rw [less_iff, htol]
    simp [XF.sub, XF.neg, XF.add, XF.round, XF.abs, XF.lt, sub_eq_add_neg]
  constructor
  · rintro ⟨s', x', g1, g2, g3⟩
    rw [hs] at g1
    cases g1
    cases x' with
    | fin x => exact ⟨x, g2, (third rnd hr hu hu1 hE hfine hh hab).1 ((key x).1 g3)⟩
    | nan => rw [less_iff] at g3; simp [XF.sub, XF.neg, XF.add, XF.round, XF.abs, XF.lt] at g3
    | pinf => rw [less_iff, htol] at g3; simp [XF.sub, XF.neg, XF.add, XF.round, XF.abs, XF.lt] at g3
    | ninf => rw [less_iff, htol] at g3; simp [XF.sub, XF.neg, XF.add, XF.round, XF.abs, XF.lt] at g3
  · intro x hx hclose
    exact ⟨_, _, hs, hx, (key x).2 ((third rnd hr hu hu1 hE hfine hh hab).2 hclose)⟩

/-! ## The slices of a grid -/

theorem places_even {l : List (XF K)} {a b u : K} {n : ℕ} (h : NearlyEven l a b n u) :
    SlicePlaces l (fun i => i) a ((b - a) / (n - 1)) (u * (max |a| |b| + 4 * (b - a))) := by
  refine ⟨?_, fun i v hv => h.near i v hv, Or.inl (by norm_num)⟩
  intro i hi
  rw [h.length] at hi
  obtain ⟨v, hv, -⟩ := h.inside i hi
  exact ⟨v, hv⟩

theorem mirrored_get {α : Type} (l : List α) (n i : ℕ) (hl : l.length = n) (hi : i < (l.reverse ++ l.tail).length) :
    (l.reverse ++ l.tail)[i]? = l[(i - (n - 1)) + ((n - 1) - i)]? := by
  rw [List.length_append, List.length_reverse, List.length_tail, hl] at hi
  by_cases h : i < n
  · rw [List.getElem?_append_left (by rw [List.length_reverse, hl]; exact h),
      List.getElem?_reverse (by rw [hl]; exact h), hl]
    congr 1; omega
  · rw [List.getElem?_append_right (by rw [List.length_reverse, hl]; omega), List.length_reverse, hl,
      List.getElem?_tail]
    congr 1; omega

theorem places_mirrored {l : List (XF K)} {a b u : K} {n : ℕ} (hn : 2 ≤ n) (h : NearlyEven l a b n u) :
    SlicePlaces (l.reverse ++ l.tail) (fun i => (i - (n - 1)) + ((n - 1) - i)) a ((b - a) / (n - 1))
      (u * (max |a| |b| + 4 * (b - a))) := by
  have hlen : (l.reverse ++ l.tail).length = 2 * n - 1 := by
    rw [List.length_append, List.length_reverse, List.length_tail, h.length]; omega
  refine ⟨?_, ?_, Or.inr (by omega)⟩
  · intro i hi
    obtain ⟨v, hv, -⟩ := h.inside ((i - (n - 1)) + ((n - 1) - i)) (by omega)
    exact ⟨v, by rw [mirrored_get l n i h.length hi]; exact hv⟩
  · intro i v hv
    have hi : i < (l.reverse ++ l.tail).length := by
      by_contra hc
      rw [List.getElem?_eq_none (by omega)] at hv
      cases hv
    rw [mirrored_get l n i h.length hi] at hv
    exact h.near _ v hv

/-- The axis `ax` of the cube has `n` points from `lo` to `hi` (the Rf axis: on each side of its middle). -/
def Spec.AxisOf (g : GridParams K) (ax : ℕ) (lo hi u : K) (n : ℕ) : Prop :=
  (ax = 0 ∧ NearlyEven g.dy.data lo hi n u) ∨ (ax = 1 ∧ NearlyEven g.dx.data lo hi n u) ∨
  (ax = 2 ∧ NearlyEven g.rf.data lo hi n u ∧ g.rfArray.data = g.rf.data.reverse ++ g.rf.data.tail)

/-- The distance of a slice from the first one, or on the Rf axis from the middle one. -/
def Spec.placeOf (ax n i : ℕ) : ℕ := if ax = 2 then (i - (n - 1)) + ((n - 1) - i) else i

theorem places_axis {g : GridParams K} {ax n : ℕ} {lo hi u : K} (h : AxisOf g ax lo hi u n)
    (h2 : 2 ≤ (Viewer.vectorOf g ax).length) :
    2 ≤ n ∧ SlicePlaces (Viewer.vectorOf g ax) (placeOf ax n) lo ((hi - lo) / (n - 1))
      (u * (max |lo| |hi| + 4 * (hi - lo))) := by
  rcases h with ⟨rfl, h⟩ | ⟨rfl, h⟩ | ⟨rfl, h, h'⟩
  · have : 2 ≤ n := by rw [← h.length]; exact h2
    exact ⟨this, places_even h⟩
  · have : 2 ≤ n := by rw [← h.length]; exact h2
    exact ⟨this, places_even h⟩
  · have e : Viewer.vectorOf g 2 = g.rf.data.reverse ++ g.rf.data.tail := h'
    have : 2 ≤ n := by
      rw [e, List.length_append, List.length_reverse, List.length_tail, h.length] at h2
      omega
    refine ⟨this, ?_⟩
    rw [e]
    exact places_mirrored this h

/-- `AxisOf` holds of what the constructor makes. -/
theorem axisOf_new {u : K} (h : FloatRounding rnd u) (hu0 : 0 ≤ u)
    (minX maxX numX minY maxY numY maxRf numRf : PyVal K) (a b c d m : K) (nx ny nr : ℕ)
    (ha : IsNumber false minX (.fin a)) (hb : IsNumber false maxX (.fin b)) (hnx : Count numX nx)
    (hc : IsNumber false minY (.fin c)) (hd : IsNumber false maxY (.fin d)) (hny : Count numY ny)
    (hm : IsNumber false maxRf (.fin m)) (hnr : Count numRf nr) (g : GridParams K)
    (hg : GridRounded.new rnd minX maxX numX minY maxY numY maxRf numRf = .ok g) :
    (4 * u * ny ≤ 1 → AxisOf g 0 (rnd c) (rnd d) u ny) ∧ (4 * u * nx ≤ 1 → AxisOf g 1 (rnd a) (rnd b) u nx) ∧
    (4 * u * nr ≤ 1 → AxisOf g 2 1 (rnd m) u nr) := by
  obtain ⟨h1, h2, h3, h4⟩ := (C92_vectors h hu0 _ _ _ _ _ _ _ _ a b c d m nx ny nr ha hb hnx hc hd hny hm hnr).2 g hg
  exact ⟨fun h => Or.inl ⟨rfl, h2 h⟩, fun h => Or.inr (Or.inl ⟨rfl, h1 h⟩), fun h => Or.inr (Or.inr ⟨rfl, h3 h, h4⟩)⟩

/-- What is needed of a viewer in the following. -/
theorem viewed {u : K} (hr : Rounds rnd u) (hu : 0 ≤ u) (hu1 : 1000 * u ≤ 1) {lo hi : K} {n : ℕ}
    (axis masked index frozen : PyVal K) (cs : List (List (XF K))) (p p' : GProp K) (v : Viewer K) (hp : FitsGrid p)
    (h : ViewerRounded.new rnd axis masked index frozen (some cs) p = (.ok v, p'))
    (hax : AxisOf p.params v.axis lo hi u n) (hlo : lo < hi)
    (hfine : 1000 * (u * (max |lo| |hi| + 4 * (hi - lo))) ≤ (hi - lo) / (n - 1)) (w : Viewer K)
    (hw : MarkedR rnd w cs) (hs : SameCube v w) :
    0 < (hi - lo) / ((n : K) - 1) ∧ ∃ s, w.title.1 = .fin s ∧
      |s - (lo + placeOf v.axis n w.index.toNat * ((hi - lo) / (n - 1)))| ≤ 1 / 1000 * ((hi - lo) / (n - 1)) ∧
      ∀ c, (NearR rnd w c → ∃ x, c[v.axis]? = some (.fin x) ∧ |s - x| ≤ 34 / 100 * ((hi - lo) / (n - 1))) ∧
        (∀ x, c[v.axis]? = some (.fin x) → |s - x| ≤ 33 / 100 * ((hi - lo) / (n - 1)) → NearR rnd w c) := by
  obtain ⟨-, -, hv, -, s0, s1, h0, h1, ht⟩ := newRV_marked rnd axis masked index frozen cs p p' v hp h
  have hlen : 2 ≤ (Viewer.vectorOf p.params v.axis).length := by
    rw [← hv]
    by_contra hc
    rw [List.getElem?_eq_none (by omega)] at h1
    cases h1
  obtain ⟨hn, hpl⟩ := places_axis hax hlen
  have hn1 : (0 : K) < (n : K) - 1 := by
    have : (2 : K) ≤ n := by exact_mod_cast hn
    linarith
  have hh : 0 < (hi - lo) / ((n : K) - 1) := div_pos (by linarith) hn1
  have hE : 0 ≤ u * (max |lo| |hi| + 4 * (hi - lo)) :=
    mul_nonneg hu (add_nonneg ((abs_nonneg lo).trans (le_max_left _ _)) (by linarith))
  rw [← hv, ← hs.values] at hpl
  have hidx : w.index.toNat < w.sliceValues.length := by
    have := hw.valid.low
    have := hw.valid.high
    omega
  obtain ⟨s, hsl⟩ := hpl.finite _ hidx
  have htitle : w.title.1 = .fin s := by
    have := hw.sync.value
    rw [hsl] at this
    exact (Option.some.inj this).symm
  refine ⟨hh, s, htitle, (hpl.near _ s hsl).trans (by linarith), fun c => ?_⟩
  rw [← hs.values] at h0 h1
  rw [← hs.tolerance] at ht
  have := nearR_third rnd hr hu hu1 hE hfine hh w hpl h0 h1 ht c s hsl
  rwa [hs.axis] at this

/-- **C128, the slice (partial)** In floating point, in a viewer of a grid whose slices are farther apart than a
thousand rounding errors, a coordinate that differs from the shown slice by at most 33 % of the distance of two slices
is marked, after any scroll events, and if all differ by more than 34 %, there are no marks.  When the viewer is made
it shows no other marks. -/
theorem C128_slice_partial {u : K} (hr : Rounds rnd u) (hu : 0 ≤ u) (hu1 : 1000 * u ≤ 1) {lo hi : K} {n : ℕ}
    (axis masked index frozen : PyVal K) (cs : List (List (XF K))) (p p' : GProp K) (v : Viewer K) (hp : FitsGrid p)
    (h : ViewerRounded.new rnd axis masked index frozen (some cs) p = (.ok v, p'))
    (hax : AxisOf p.params v.axis lo hi u n) (hlo : lo < hi)
    (hfine : 1000 * (u * (max |lo| |hi| + 4 * (hi - lo))) ≤ (hi - lo) / (n - 1)) :
    IsInteger axis v.axis ∧
    (∃ s, v.title.1 = .fin s ∧ ∀ q ∈ v.lines, ∃ c ∈ cs, ∃ x, c[v.axis]? = some (.fin x) ∧
      |s - x| ≤ 34 / 100 * ((hi - lo) / (n - 1)) ∧ q = point v.axis c) ∧
    ∀ events : List String, ∃ s, (scrollsR rnd events v).title.1 = .fin s ∧
      (∀ c ∈ cs, ∀ x, c[v.axis]? = some (.fin x) → |s - x| ≤ 33 / 100 * ((hi - lo) / (n - 1)) →
        point v.axis c ∈ (scrollsR rnd events v).lines) ∧
      ((∀ c ∈ cs, ∀ x, c[v.axis]? = some (.fin x) → 34 / 100 * ((hi - lo) / (n - 1)) < |s - x|) →
        (scrollsR rnd events v).lines = []) := by
  obtain ⟨m1, m2, -, m4, -⟩ := newRV_marked rnd axis masked index frozen cs p p' v hp h
  refine ⟨m2, ?_, ?_⟩
  · obtain ⟨-, s, hs, -, hc⟩ := viewed rnd hr hu hu1 axis masked index frozen cs p p' v hp h hax hlo hfine v m1 (.refl v)
    refine ⟨s, hs, fun q hq => ?_⟩
    obtain ⟨c, hcc, hn, hq'⟩ := m4 q hq
    obtain ⟨x, hx, hx'⟩ := (hc c).1 hn
    exact ⟨c, hcc, x, hx, hx', hq'⟩
  · intro events
    obtain ⟨w1, w2⟩ := scrollsR_marked rnd cs events v m1
    obtain ⟨-, s, hs, -, hc⟩ := viewed rnd hr hu hu1 axis masked index frozen cs p p' v hp h hax hlo hfine _ w1 w2
    refine ⟨s, hs, fun c hcc x hx hd => ?_, fun hall => w1.none fun c hcc hn => ?_⟩
    · have := w1.all c hcc ((hc c).2 x hx hd)
      rwa [w2.axis] at this
    · obtain ⟨x, hx, hd⟩ := (hc c).1 hn
      exact absurd hd (not_le.2 (hall c hcc x hx))

/-- **C128, scrolling** Unless the viewer was made frozen, every event moves it to the next slice, or to the one before,
and stops at the ends; the image is that slice and the title names it. -/
theorem C128_scroll (axis masked index frozen : PyVal K) (cs : List (List (XF K))) (p p' : GProp K) (v : Viewer K)
    (hp : FitsGrid p) (h : ViewerRounded.new rnd axis masked index frozen (some cs) p = (.ok v, p'))
    (events : List String) (e : String) :
    let w := scrollsR rnd events v
    let w' := scrollsR rnd (events ++ [e]) v
    w'.index = (if frozen = .bool true then w.index else
      if e = "up" then min (w.index + 1) (w.sliceValues.length - 1) else max (w.index - 1) 0) ∧
    ShowsSlice p'.data w.axis w.index.toNat w.image ∧ w.sliceValues[w.index.toNat]? = some w.title.1 := by
  intro w w'
  obtain ⟨m1, -, -, -, -⟩ := newRV_marked rnd axis masked index frozen cs p p' v hp h
  obtain ⟨w1, w2⟩ := scrollsR_marked rnd cs events v m1
  have hdf : v.data = p'.data ∧ v.frozen = decide (frozen = .bool true) := by
    obtain ⟨ax, data, v0, v1, hax, h0, h2, hd, hs, hu, hf⟩ := newRV_ok _ _ _ _ _ _ _ _ _ h
    obtain ⟨hd1, hd2, hd3⟩ := getData_ok _ _ _ _ hd
    obtain ⟨s1, s2, s3, s4, s5, s6, s7, s8, -, -, s9, -⟩ := startR_ok _ _ _ _ _ _ _ hs
    have hti := isInteger_toInt hax
    have hvalid : Valid v0 := by
      refine ⟨by omega, ?_, s7, s8, by rw [s4]; exact s9⟩
      obtain ⟨a, b, c, h3, h4⟩ := vectorOf_fits p hp v0.axis (by omega)
      exact ⟨a, b, c, by rw [s2, hd1, hd3, h3], by rw [s3, h4]⟩
    obtain ⟨-, -, -, g4, -⟩ := updateR_good rnd v0 hvalid
    rw [hu] at g4
    simp only at g4
    rcases hf with ⟨hf, rfl⟩ | ⟨f, hf, rfl⟩
    · exact ⟨by rw [g4.data, s2, hd1], by rw [g4.frozen, s5, hf]; rfl⟩
    · refine ⟨by show v1.data = _; rw [g4.data, s2, hd1], ?_⟩
      rw [hf]; cases f <;> rfl
  have hw' : w' = (ViewerRounded.onscroll rnd e w).2 := by
    simp only [w', w, scrollsR, List.foldl_append, List.foldl_cons, List.foldl_nil]
  refine ⟨?_, by rw [← hdf.1, ← w2.data]; exact w1.sync.image, w1.sync.value⟩
  have l1 : 0 ≤ w.index := w1.valid.low
  have l2 : w.index < w.sliceValues.length := w1.valid.high
  have hfr : w.frozen = decide (frozen = .bool true) := by rw [w2.frozen, hdf.2]
  rw [hw']
  by_cases hf : frozen = .bool true
  · rw [if_pos hf]
    unfold ViewerRounded.onscroll
    rw [Meth.get_bind, if_pos (by rw [hfr]; simp [hf])]
    rfl
  · rw [if_neg hf]
    have hsc : 0 ≤ w.scrolled e ∧ w.scrolled e < w.sliceValues.length ∧ w.scrolled e =
        if e = "up" then min (w.index + 1) (w.sliceValues.length - 1) else max (w.index - 1) 0 := by
      unfold Viewer.scrolled
      by_cases he : e = "up"
      · simp only [he, ne_eq, not_true_eq_false, true_and, false_and, if_true, if_false]
        split_ifs <;> omega
      · simp only [he, ne_eq, not_false_eq_true, true_and, false_and, if_false]
        split_ifs <;> omega
    have : ViewerRounded.onscroll rnd e w = ViewerRounded.update rnd { w with index := w.scrolled e } := by
      unfold ViewerRounded.onscroll
      rw [Meth.get_bind, if_neg (by rw [hfr]; simp [hf]), Meth.bind_apply, Meth.set_apply]
    rw [this, (updateR_good rnd { w with index := w.scrolled e }
      ⟨w1.valid.axis, w1.valid.shape, hsc.1, hsc.2.1, w1.valid.coordinates⟩).2.2.2.2]
    exact hsc.2.2

/-- **C128, one slice (partial)** Such a coordinate is marked on one slice at most; along the Rf axis on two, the
horizontal and the vertical one of the same Rf. -/
theorem C128_once_partial {u : K} (hr : Rounds rnd u) (hu : 0 ≤ u) (hu1 : 1000 * u ≤ 1) {lo hi : K} {n : ℕ}
    (axis masked index frozen masked' index' frozen' : PyVal K) (c : List (XF K)) (p p' p'' : GProp K) (v w : Viewer K)
    (hp : FitsGrid p) (h : ViewerRounded.new rnd axis masked index frozen (some [c]) p = (.ok v, p'))
    (h' : ViewerRounded.new rnd axis masked' index' frozen' (some [c]) p = (.ok w, p''))
    (hax : AxisOf p.params v.axis lo hi u n) (hlo : lo < hi)
    (hfine : 1000 * (u * (max |lo| |hi| + 4 * (hi - lo))) ≤ (hi - lo) / (n - 1))
    (events events' : List String) (hv : (scrollsR rnd events v).lines ≠ [])
    (hw : (scrollsR rnd events' w).lines ≠ []) :
    (scrollsR rnd events v).index = (scrollsR rnd events' w).index ∨
    (v.axis = 2 ∧ (scrollsR rnd events v).index + (scrollsR rnd events' w).index = 2 * (n - 1)) := by
  obtain ⟨m1, m2, -, -, -⟩ := newRV_marked rnd axis masked index frozen [c] p p' v hp h
  obtain ⟨k1, k2, -, -, -⟩ := newRV_marked rnd axis masked' index' frozen' [c] p p'' w hp h'
  have hsame : w.axis = v.axis := by
    have e1 := isInteger_toInt m2
    have e2 := isInteger_toInt k2
    omega
  obtain ⟨v1, v2⟩ := scrollsR_marked rnd [c] events v m1
  obtain ⟨w1, w2⟩ := scrollsR_marked rnd [c] events' w k1
  obtain ⟨hh, s, -, hs, hc⟩ := viewed rnd hr hu hu1 axis masked index frozen [c] p p' v hp h hax hlo hfine _ v1 v2
  obtain ⟨-, s', -, hs', hc'⟩ := viewed rnd hr hu hu1 axis masked' index' frozen' [c] p p'' w hp h'
    (by rw [hsame]; exact hax) hlo hfine _ w1 w2
  have near1 : NearR rnd (scrollsR rnd events v) c := by
    by_contra hn
    exact hv (v1.none (by simpa using hn))
  have near2 : NearR rnd (scrollsR rnd events' w) c := by
    by_contra hn
    exact hw (w1.none (by simpa using hn))
  obtain ⟨x, hx, hd⟩ := (hc c).1 near1
  obtain ⟨x', hx', hd'⟩ := (hc' c).1 near2
  rw [hsame, hx] at hx'
  cases hx'
  rw [hsame] at hs'
  have l1 := v1.valid.low
  have l2 := w1.valid.low
  have hb1 := v1.valid.high
  have hb2 := w1.valid.high
  generalize (scrollsR rnd events v).index = i at *
  generalize (scrollsR rnd events' w).index = j at *
  have hplace : placeOf v.axis n i.toNat = placeOf v.axis n j.toNat := by
    generalize placeOf v.axis n i.toNat = P at *
    generalize placeOf v.axis n j.toNat = Q at *
    have a1 := abs_le.1 hs
    have a2 := abs_le.1 hs'
    have a3 := abs_le.1 hd
    have a4 := abs_le.1 hd'
    generalize (hi - lo) / ((n : K) - 1) = d at *
    by_contra hne
    rcases Nat.lt_or_gt_of_ne hne with hlt | hlt
    · have : (P : K) + 1 ≤ Q := by exact_mod_cast hlt
      have := mul_le_mul_of_nonneg_right this hh.le
      linarith [a1.1, a1.2, a2.1, a2.2, a3.1, a3.2, a4.1, a4.2]
    · have : (Q : K) + 1 ≤ P := by exact_mod_cast hlt
      have := mul_le_mul_of_nonneg_right this hh.le
      linarith [a1.1, a1.2, a2.1, a2.2, a3.1, a3.2, a4.1, a4.2]
  by_cases h2 : v.axis = 2
  · simp only [placeOf, h2, if_true] at hplace
    by_cases he : i = j
    · exact Or.inl he
    · right
      refine ⟨h2, ?_⟩
      have hn : 1 ≤ n := by
        by_contra hc0
        obtain rfl : n = 0 := by omega
        omega
      omega
  · simp only [placeOf, h2, if_false] at hplace
    left; omega

/-! ## The Rf axis -/

/-- **C128, the labels** In floating point the label at a location of the Rf axis differs from the one in exact
arithmetic by at most a few rounding errors. -/
theorem C128_label {u : K} (hr : Rounds rnd u) (hu : 0 ≤ u) (hu1 : 1000 * u ≤ 1) (m loc : K) (hm : 1 ≤ m) :
    ∃ l l', ViewerRounded.rfLabel rnd (.fin 1) (.fin m) (.fin loc) = .fin l' ∧
      Viewer.rfLabel (.fin 1) (.fin m) (.fin loc) = .fin l ∧ l = 1 + |loc - (m - 1)| ∧
      |l' - l| ≤ 4 * u * (|loc| + m) := by
  refine ⟨1 + |loc - (m - 1)|, rnd (1 + |rnd (loc - rnd (m - 1))|), ?_, ?_, rfl, ?_⟩
  · simp [ViewerRounded.rfLabel, XF.sub, XF.neg, XF.add, XF.round, XF.abs, sub_eq_add_neg]
  · simp [Viewer.rfLabel, XF.sub, XF.neg, XF.add, XF.abs, sub_eq_add_neg]
  have h1 := hr (m - 1)
  have h2 := hr (loc - rnd (m - 1))
  have h3 := hr (1 + |rnd (loc - rnd (m - 1))|)
  rw [abs_of_nonneg (show 0 ≤ m - 1 by linarith)] at h1
  rw [abs_of_nonneg (show 0 ≤ 1 + |rnd (loc - rnd (m - 1))| by positivity)] at h3
  generalize rnd (m - 1) = r at *
  have h4 : |(|rnd (loc - r)| - |loc - (m - 1)|)| ≤ u * |loc - r| + u * (m - 1) := by
    refine (abs_abs_sub_abs_le _ _).trans ?_
    have : rnd (loc - r) - (loc - (m - 1)) = (rnd (loc - r) - (loc - r)) + (-(r - (m - 1))) := by ring
    rw [this]
    refine (abs_add_le _ _).trans ?_
    rw [abs_neg]
    linarith
  have h5 : |loc - r| ≤ |loc| + (1 + u) * (m - 1) := by
    have e : loc - r = loc + (-(m - 1) + -(r - (m - 1))) := by ring
    rw [e]
    refine (abs_add_le _ _).trans ?_
    have := abs_add_le (-(m - 1)) (-(r - (m - 1)))
    rw [abs_neg, abs_neg, abs_of_nonneg (show 0 ≤ m - 1 by linarith)] at this
    linarith
  have h6 : |loc - (m - 1)| ≤ |loc| + (m - 1) := by
    have := abs_sub loc (m - 1)
    rw [abs_of_nonneg (show 0 ≤ m - 1 by linarith)] at this
    exact this
  generalize |rnd (loc - r)| = R at *
  have hloc := abs_nonneg loc
  have hA0 := abs_nonneg (loc - r)
  generalize |loc - r| = A at *
  generalize |loc - (m - 1)| = B at *
  generalize |loc| = C at *
  have h7 := abs_le.1 h4
  have key : |rnd (1 + R) - (1 + B)| ≤ u * (1 + R) + (u * A + u * (m - 1)) := by
    have e : rnd (1 + R) - (1 + B) = (rnd (1 + R) - (1 + R)) + (R - B) := by ring
    rw [e]
    exact (abs_add_le _ _).trans (add_le_add h3 h4)
  refine key.trans ?_
  have hR : R ≤ B + u * A + u * (m - 1) := by linarith [h7.2]
  have u1 : u * A ≤ A / 1000 := by nlinarith
  have u2 : u * (m - 1) ≤ (m - 1) / 1000 := by nlinarith
  have hA : A ≤ C + (m - 1) + (m - 1) / 1000 := by linarith
  have e1 : 1 + R + A + (m - 1) ≤ 4 * (C + m) := by linarith
  have := mul_le_mul_of_nonneg_left e1 hu
  linarith

/-! ## Without rounding it is the plain model -/

theorem plotLoopR_id : ∀ (cs : List (List (XF K))) (b : Bool),
    ViewerRounded.plotLoop (fun x => x) cs b = Viewer.plotLoop cs b
  | [], _ => rfl
  | c :: cs, b => by
    unfold ViewerRounded.plotLoop Viewer.plotLoop
    simp only [plotLoopR_id cs, ViewerRounded.mark, Viewer.mark, XF.round_id]
    rfl

theorem ViewerRounded.update_id : ViewerRounded.update (K := K) (fun x => x) = Viewer.update := by
  unfold ViewerRounded.update Viewer.update ViewerRounded.plotCoordinates Viewer.plotCoordinates
  simp only [plotLoopR_id]
  rfl

theorem ViewerRounded.new_id (axis masked index frozen : PyVal K) (coordinates : Option (List (List (XF K)))) :
    ViewerRounded.new (fun x => x) axis masked index frozen coordinates =
      Viewer.new axis masked index frozen coordinates := by
  have hs : ∀ (d : Nd K) g a, ViewerRounded.start (fun x => x) d g a index coordinates =
      Viewer.start d g a index coordinates := by
    intro d g a
    unfold ViewerRounded.start Viewer.start
    simp only [ViewerRounded.toleranceOf, Viewer.toleranceOf, ViewerRounded.determineExtent, Viewer.determineExtent,
      XF.round_id]
    rfl
  have hf : ∀ v : Viewer K, ViewerRounded.finish (fun x => x) frozen v = Viewer.finish frozen v := by
    intro v
    unfold ViewerRounded.finish Viewer.finish
    rw [ViewerRounded.update_id]
    rfl
  unfold ViewerRounded.new Viewer.new
  simp only [hs, hf]

end

/-! ## Concrete cases, in binary64 -/

/-- A property on a grid of 2 × 4 × 3 points, with x from 0 to 1 in thirds. -/
def Spec.cubeR : GProp ℚ :=
  ⟨.diskRadius, .eclipseDuration, gridOfR toDouble (.fin 0) (.fin 1) 4 (.fin 0) (.fin 1) 2 (.fin 2) 2,
    ⟨[2, 4, 3], (List.range 24).map fun i => .fin i⟩, none, some (.fin 0), some (.fin 23), "viridis", 11⟩

/-- The grid is one that the constructor makes. -/
example : GridRounded.new toDouble (.int 0) (.int 1) (.int 4) (.int 0) (.int 1) (.int 2) (.int 2) (.int 2) =
    .ok cubeR.params := by decide +kernel

/-- `C128_slice_partial` and `C128_once_partial` are not void: a coordinate near the second slice along x. -/
example : ∃ (v : Viewer ℚ), ViewerRounded.new toDouble (.int 1) (.bool true) (.int 1) (.bool false)
      (some [[.fin 0, .fin (2 / 5), .fin 2]]) cubeR = (.ok v, cubeR) ∧ FitsGrid cubeR ∧ v.lines ≠ [] ∧
    Rounds (toDouble : ℚ → ℚ) (1 / 2 ^ 53) ∧ AxisOf cubeR.params v.axis 0 1 (1 / 2 ^ 53) 4 ∧
    1000 * ((1 / 2 ^ 53 : ℚ) * (max |0| |1| + 4 * (1 - 0))) ≤ (1 - 0) / ((4 : ℕ) - 1) := by
  refine ⟨((ViewerRounded.new toDouble (.int 1) (.bool true) (.int 1) (.bool false)
      (some [[.fin 0, .fin (2 / 5), .fin 2]]) cubeR).1.toOption).get (by decide +kernel), by decide +kernel,
    by unfold FitsGrid; decide +kernel, by decide +kernel, toDouble_rounding.error, ?_, by norm_num⟩
  right; left
  refine ⟨by decide +kernel, ?_⟩
  have := linspaceR_even toDouble_rounding (by norm_num) (show (0 : ℚ) ≤ 1 by norm_num) (n := 4) (by norm_num)
    (by norm_num)
  rwa [show toDouble (0 : ℚ) = 0 from rnd_zero toDouble_error, toDouble_one] at this

/-- **C128 is false**: a coordinate half way between two slices is marked on none of them … -/
theorem C128_false_between : ∀ i : Fin 4, ∃ v : Viewer ℚ,
    ViewerRounded.new toDouble (.int 1) (.bool true) (.int i) (.bool false)
      (some [[.fin 0, .fin (1 / 2), .fin 2]]) cubeR = (.ok v, cubeR) ∧ v.index = i ∧ v.lines = [] := by
  have h : ∀ i : Fin 4, ∃ h : ((ViewerRounded.new toDouble (.int 1) (.bool true) (.int i) (.bool false)
      (some [[.fin 0, .fin (1 / 2), .fin 2]]) cubeR).1.toOption).isSome = true,
      ViewerRounded.new toDouble (.int 1) (.bool true) (.int i) (.bool false)
        (some [[.fin 0, .fin (1 / 2), .fin 2]]) cubeR = (.ok (Option.get _ h), cubeR) ∧
      (Option.get _ h).index = i ∧ (Option.get _ h).lines = [] := by decide +kernel
  exact fun i => ⟨_, (h i).2⟩

/-- … and one with Rf = 2 both on the horizontal and on the vertical slice. -/
theorem C128_false_twice : ∃ v w : Viewer ℚ,
    ViewerRounded.new toDouble (.int 2) (.bool true) (.int 0) (.bool false)
      (some [[.fin 0, .fin 0, .fin 2]]) cubeR = (.ok v, cubeR) ∧
    ViewerRounded.new toDouble (.int 2) (.bool true) (.int 2) (.bool false)
      (some [[.fin 0, .fin 0, .fin 2]]) cubeR = (.ok w, cubeR) ∧
    v.title = (.fin 2, some .horizontal) ∧ w.title = (.fin 2, some .vertical) ∧
    v.lines = [(.fin 0, .fin 0)] ∧ w.lines = [(.fin 0, .fin 0)] := by
  refine ⟨((ViewerRounded.new toDouble (.int 2) (.bool true) (.int 0) (.bool false)
      (some [[.fin 0, .fin 0, .fin 2]]) cubeR).1.toOption).get (by decide +kernel),
    ((ViewerRounded.new toDouble (.int 2) (.bool true) (.int 2) (.bool false)
      (some [[.fin 0, .fin 0, .fin 2]]) cubeR).1.toOption).get (by decide +kernel), ?_⟩
  decide +kernel

end Beyonce
