import Verif.RingHeap
import Verif.Props.RingSystemInv

/-!
# Properties C09 and C10: histories with several systems and shared ring objects
-/

set_option linter.unusedSectionVars false

namespace Beyonce
open Spec
variable {K : Type} [Field K] [LinearOrder K]

/-- The reference is used by some system. -/
def Spec.InUse (w : World K) (ref : ℕ) : Prop := ∃ s ∈ w.systems, ref ∈ s.rings

/-- The radii (as passed to the constructor) are ordered without overlap. -/
def Spec.OrderedRadii (i o : List (XF K)) : Prop :=
  (i.zip o).Pairwise (fun x y => LessEq x.2 y.1)

/-- A statement that respects ownership: rings that belong to a system are not edited nor added
to a system again, the geometry attributes of a system are not assigned, a new system is given
ordered radii, and no NaN nor boolean index is passed. -/
def Spec.Disciplined (w : World K) : WorldOp K → Prop
  | .newRing i o t inc p => NotNan i ∧ NotNan o ∧ NotNan t ∧ NotNan inc ∧ NotNan p
  | .editRing ref op => ¬ InUse w ref ∧ NotNan op.arg
  | .newSystem _ i o t inc p => NotNan inc ∧ NotNan p ∧ ∃ ai ao at', i = .arr ai ∧ o = .arr ao ∧
      t = .arr at' ∧ (∀ x ∈ ai.data ++ ao.data ++ at'.data, x ≠ .nan) ∧ OrderedRadii ai.data ao.data
  | .setInclination _ _ | .setTilt _ _ => False
  | .add _ i ref | .replace _ i ref => (∀ b, i ≠ .bool b) ∧ ¬ InUse w ref
  | .remove _ i => ∀ b, i ≠ .bool b
  | .split _ _ | .merge _ _ => True

/-- A program all of whose statements respect ownership at the time they are executed. -/
def Spec.DisciplinedRun [FloorRing K] : World K → List (WorldOp K) → Prop
  | _, [] => True
  | w, op :: ops => Disciplined w op ∧ DisciplinedRun (op.exec w) ops

/-- No system has overlapping rings. -/
def Spec.NoOverlap (w : World K) : Prop :=
  ∀ s ∈ w.systems, (s.rings.map w.ring).Pairwise (fun r r' => LessEq r.outer r'.inner)

/-- Every ring has the geometry of its system. -/
def Spec.SameGeometry (w : World K) : Prop :=
  ∀ s ∈ w.systems, ∀ ref ∈ s.rings, (w.ring ref).inclination = s.inclination ∧
    (w.ring ref).tilt = s.tilt

/-- What is kept by disciplined programs. -/
structure WorldInv (w : World K) : Prop where
  valid : ∀ r ∈ w.heap, ValidRing r
  inHeap : ∀ s ∈ w.systems, ∀ ref ∈ s.rings, ref < w.heap.length
  owned : w.systems.Pairwise (fun s s' => ∀ ref ∈ s.rings, ref ∉ s'.rings)
  nodup : ∀ s ∈ w.systems, s.rings.Nodup
  wellFormed : ∀ s ∈ w.systems, WellFormed (w.view s)

variable [IsStrictOrderedRing K]

/-! ## The constructor -/

theorem check_num {v w : PyVal K} {ci ex : Bool} {lo hi : PyVal K}
    (h : number v (.bool ci) lo hi (.bool ex) = .ok w) : w = v :=
  ((C01_number_ok_iff _ _ _ _ _ _).1 h).1

theorem newRing_fields {i o t inc p : PyVal K} {r : RingObj K} (h : newRing i o t inc p = .ok r) :
    r.outer = o.num ∧ r.transmission = t.num ∧ r.inclination = inc.num ∧ r.tilt = p.num := by
  unfold newRing checkOuter checkTransmission checkInclination checkTilt at h
  cases h1 : checkInner .pinf i with
  | error e => simp only [bind, Except.bind, h1] at h; cases h
  | ok x1 =>
  simp only [bind, Except.bind, h1] at h
  cases h2 : number o (.bool false) (.float x1) (.float .pinf) (.bool true) with
  | error e => simp only [h2] at h; cases h
  | ok x2 =>
  simp only [h2] at h
  cases h3 : number t (.bool false) (.float (.fin 0)) (.float (.fin 1)) (.bool false) with
  | error e => simp only [h3] at h; cases h
  | ok x3 =>
  simp only [h3] at h
  cases h4 : number inc (.bool false) (.int 0) (.int 90) (.bool false) with
  | error e => simp only [h4] at h; cases h
  | ok x4 =>
  simp only [h4] at h
  cases h5 : number p (.bool false) (.int (-180)) (.int 180) (.bool false) with
  | error e => simp only [h5] at h; cases h
  | ok x5 =>
  simp only [h5, Except.ok.injEq] at h
  subst h
  rw [check_num h2, check_num h3, check_num h4, check_num h5]
  simp

theorem newRing_inner {x : XF K} {o t inc p : PyVal K} {r : RingObj K}
    (h : newRing (.npFloat .w64 x) o t inc p = .ok r) : r.inner = x ∨ x = .fin 0 := by
  by_cases hx : x = .fin 0
  · exact Or.inr hx
  left
  unfold newRing at h
  cases h1 : checkInner .pinf (.npFloat .w64 x) with
  | error e => simp only [bind, Except.bind, h1] at h; cases h
  | ok x1 =>
  have : x1 = x := by
    unfold checkInner at h1
    have hz : eqZero (K := K) (.npFloat .w64 x) = .ok false := by
      cases x <;> simp_all [eqZero, XF.eqb]
    simp only [hz, bind, Except.bind, Bool.false_eq_true, if_false] at h1
    cases h2 : number (K := K) (.npFloat .w64 x) (.bool false) (.float (.fin 0)) (.float .pinf)
        (.bool true) with
    | error e => simp only [h2] at h1; cases h1
    | ok v =>
      simp only [h2, Except.ok.injEq] at h1
      rw [← h1, check_num h2]; simp
  subst this
  simp only [bind, Except.bind, h1] at h
  revert h
  generalize checkOuter x1 o = c1
  generalize checkTransmission t = c2
  generalize checkInclination inc = c3
  generalize checkTilt p = c4
  cases c1 <;> cases c2 <;> cases c3 <;> cases c4 <;> simp
  rintro rfl
  rfl

theorem notNan_npFloat {x : XF K} (h : x ≠ .nan) : NotNan (.npFloat .w64 x : PyVal K) := by
  rintro (⟨_, h', _⟩ | ⟨_, h'⟩)
  · cases h'
  · cases h'; exact h rfl

theorem notNan_float {x : XF K} (h : x ≠ .nan) : NotNan (.float x : PyVal K) := by
  rintro (⟨_, h', _⟩ | ⟨_, h'⟩)
  · cases h'
  · cases h'; exact h rfl

theorem buildRings_ok {inc tilt : K} (l : List (XF K × XF K × XF K)) (rings : List (RingObj K))
    (h : buildRings (.fin inc) (.fin tilt) l = .ok rings)
    (hn : ∀ x ∈ l, x.1 ≠ .nan ∧ x.2.1 ≠ .nan ∧ x.2.2 ≠ .nan)
    (hord : l.Pairwise (fun x y => LessEq x.2.1 y.1)) :
    (∀ r ∈ rings, ValidRing r ∧ r.inclination = .fin inc ∧ r.tilt = .fin tilt) ∧
    rings.Pairwise (fun r r' => LessEq r.outer r'.inner) ∧
    (∀ r ∈ rings, ∃ x ∈ l, r.outer = x.2.1 ∧ (r.inner = x.1 ∨ x.1 = .fin 0)) := by
  induction l generalizing rings with
  | nil => simp only [buildRings, Except.ok.injEq] at h; subst h; simp
  | cons x l ih =>
    obtain ⟨i, o, t⟩ := x
    unfold buildRings at h
    cases h1 : newRing (.npFloat .w64 i) (.npFloat .w64 o) (.npFloat .w64 t) (.float (.fin inc))
        (.float (.fin tilt)) with
    | error e => simp only [bind, Except.bind, h1] at h; cases h
    | ok r =>
    simp only [bind, Except.bind, h1] at h
    cases h2 : buildRings (.fin inc) (.fin tilt) l with
    | error e => simp only [h2] at h; cases h
    | ok rs =>
    simp only [h2, Except.ok.injEq] at h
    subst h
    have hx := hn (i, o, t) (by simp)
    obtain ⟨g1, g2, g3⟩ := ih rs h2 (fun y hy => hn y (by simp [hy])) (List.pairwise_cons.1 hord).2
    have hv : ValidRing r := newRing_valid (notNan_npFloat hx.1) (notNan_npFloat hx.2.1)
      (notNan_npFloat hx.2.2) (notNan_float (by simp)) (notNan_float (by simp)) h1
    obtain ⟨f1, f2, f3, f4⟩ := newRing_fields h1
    refine ⟨?_, List.pairwise_cons.2 ⟨?_, g2⟩, ?_⟩
    · intro r' hr'
      rcases List.mem_cons.1 hr' with rfl | hr'
      · exact ⟨hv, by simpa using f3, by simpa using f4⟩
      · exact g1 r' hr'
    · intro r' hr'
      obtain ⟨y, hy, hy1, hy2⟩ := g3 r' hr'
      have hle := (List.pairwise_cons.1 hord).1 y hy
      simp only at hle
      obtain ⟨a, b, t', _, _, rfl, ha, hab, _⟩ := hv
      simp only [PyVal.num_npFloat] at f1
      simp only
      rw [f1]
      rcases hy2 with hy2 | hy2
      · rw [hy2]; exact hle
      · rw [hy2, ← f1, lessEq_iff] at hle
        simp at hle
        linarith
    · intro r' hr'
      rcases List.mem_cons.1 hr' with rfl | hr'
      · exact ⟨(i, o, t), by simp, by simpa using f1, newRing_inner h1⟩
      · obtain ⟨y, hy, hy'⟩ := g3 r' hr'
        exact ⟨y, by simp [hy], hy'⟩

/-- **C08** A new system is well-formed if it is built from ordered radii without NaN. -/
theorem C08_constructor (planet inc tilt : PyVal K) (i o t : NpArr K) (s : RSys K)
    (h : newSystem planet (.arr i) (.arr o) (.arr t) inc tilt = .ok s)
    (hinc : NotNan inc) (htilt : NotNan tilt)
    (hn : ∀ x ∈ i.data ++ o.data ++ t.data, x ≠ .nan) (hord : OrderedRadii i.data o.data) :
    WellFormed s := by
  unfold newSystem at h
  cases h1 : number planet (.bool false) (.float (.fin 0)) with
  | error e => simp only [bind, Except.bind, h1] at h; cases h
  | ok p =>
  simp only [bind, Except.bind, h1] at h
  cases h2 : number inc (.bool false) (.float (.fin 0)) (.float (.fin 90)) with
  | error e => simp only [h2] at h; cases h
  | ok inc' =>
  simp only [h2] at h
  cases h3 : number tilt (.bool false) (.float (.fin (-180))) (.float (.fin 180)) with
  | error e => simp only [h3] at h; cases h
  | ok tilt' =>
  simp only [h3] at h
  have harr : ∀ (lo hi dt nd : PyVal K) (a b : NpArr K) (ex : PyVal K),
      array (.arr a) lo hi ex dt nd = .ok b → b = a := by
    intro lo hi dt nd a b ex hh
    have e : arrayLike (K := K) (.arr a) = .ok a := rfl
    unfold array at hh
    simp only [e, bind, Except.bind] at hh
    revert hh
    generalize arrayBounds a (if lo = .none then .float .ninf else lo)
      (if hi = .none then .float .pinf else hi) ex = c1
    generalize arrayDimensions a nd = c2
    generalize arrayType a dt = c3
    cases c1 <;> cases c2 <;> cases c3 <;> split_ifs <;> simp <;> exact fun h => h.symm
  cases h4 : array (.arr i) (.int 0) .none (.bool false) (.str "float64") (.int 1) with
  | error e => simp only [h4] at h; cases h
  | ok i' =>
  simp only [h4] at h
  cases h5 : array (.arr o) (.int 0) .none (.bool false) (.str "float64") (.int 1) with
  | error e => simp only [h5] at h; cases h
  | ok o' =>
  simp only [h5] at h
  cases h6 : array (.arr t) (.int 0) (.int 1) (.bool false) (.str "float64") (.int 1) with
  | error e => simp only [h6] at h; cases h
  | ok t' =>
  simp only [h6] at h
  cases h7 : sameShapeArrays (K := K) [.arr i, .arr o, .arr t] 3 with
  | error e => simp only [h7] at h; cases h
  | ok u =>
  simp only [h7] at h
  obtain rfl := harr _ _ _ _ _ _ _ h4
  obtain rfl := harr _ _ _ _ _ _ _ h5
  obtain rfl := harr _ _ _ _ _ _ _ h6
  have hi0 := number_ok_num_ne_nan h2 hinc
  have ht0 := number_ok_num_ne_nan h3 htilt
  obtain ⟨rfl, -, hi1⟩ := number_ok_within h2
  obtain ⟨rfl, -, ht1⟩ := number_ok_within h3
  obtain ⟨inc, hinc', hi2, hi3⟩ := within_fin_fin (hi1 hi0 (by simp) (by simp))
  obtain ⟨tl, htl', ht2, ht3⟩ := within_fin_fin (ht1 ht0 (by simp) (by simp))
  rw [hinc', htl'] at h
  cases h8 : buildRings (.fin inc) (.fin tl) (i'.data.zip (o'.data.zip t'.data)) with
  | error e => simp only [h8] at h; cases h
  | ok rings =>
  simp only [h8, Except.ok.injEq] at h
  subst h
  have hn' : ∀ x ∈ i'.data.zip (o'.data.zip t'.data), x.1 ≠ .nan ∧ x.2.1 ≠ .nan ∧ x.2.2 ≠ .nan := by
    intro x hx
    have h1 := List.of_mem_zip hx
    have h2 := List.of_mem_zip (show (x.2.1, x.2.2) ∈ _ from h1.2)
    exact ⟨hn _ (by simp [h1.1]), hn _ (by simp [h2.1]), hn _ (by simp [h2.2])⟩
  have hord' : (i'.data.zip (o'.data.zip t'.data)).Pairwise (fun x y => LessEq x.2.1 y.1) := by
    unfold OrderedRadii at hord
    generalize i'.data = li at hord
    generalize o'.data = lo at hord
    generalize t'.data = lt
    clear * - hord
    induction li generalizing lo lt with
    | nil => simp
    | cons a li ih =>
      cases lo with
      | nil => simp
      | cons b lo =>
        cases lt with
        | nil => simp
        | cons c lt =>
          simp only [List.zip_cons_cons, List.pairwise_cons] at hord ⊢
          refine ⟨?_, ih lo hord.2 lt⟩
          intro y hy
          have h1 := List.of_mem_zip hy
          have : (y.1, y.2.1) ∈ li.zip lo := by
            obtain ⟨j, hj, rfl⟩ := List.mem_iff_getElem.1 hy
            simp only [List.getElem_zip]
            simp only [List.length_zip] at hj
            refine List.mem_iff_getElem.2 ⟨j, by simp only [List.length_zip]; omega, by simp⟩
          exact hord.1 _ this
  obtain ⟨g1, g2, -⟩ := buildRings_ok _ _ h8 hn' hord'
  exact ⟨⟨inc, tl, rfl, rfl, hi2, hi3, ht2, ht3⟩, fun r hr => (g1 r hr).1, fun r hr => (g1 r hr).2.1,
    fun r hr => (g1 r hr).2.2, g2⟩

/-! ## One statement of a disciplined program -/

theorem ring_eq {w : World K} {ref : ℕ} {r : RingObj K} (h : w.heap[ref]? = some r) :
    w.ring ref = r := by simp [World.ring, h]

theorem world_valid_ring {w : World K} (hw : WorldInv w) {ref : ℕ} {r : RingObj K}
    (h : w.heap[ref]? = some r) : ValidRing r := hw.valid r (List.mem_of_getElem? h)

/-- Replacing a ring that no system uses changes no system. -/
theorem worldInv_setHeap {w : World K} (hw : WorldInv w) {ref : ℕ} (hu : ¬ InUse w ref)
    {r : RingObj K} (hr : ValidRing r) : WorldInv ⟨w.heap.set ref r, w.systems⟩ := by
  have hview : ∀ s ∈ w.systems, World.view ⟨w.heap.set ref r, w.systems⟩ s = w.view s := by
    intro s hs
    unfold World.view
    congr 1
    apply List.map_congr_left
    intro i hi
    have : ref ≠ i := by rintro rfl; exact hu ⟨s, hs, hi⟩
    simp [World.ring, List.getElem?_set_ne this]
  refine ⟨?_, ?_, hw.owned, hw.nodup, ?_⟩
  · intro x hx
    rcases List.mem_or_eq_of_mem_set hx with h | rfl
    · exact hw.valid x h
    · exact hr
  · intro s hs i hi
    simpa using hw.inHeap s hs i hi
  · intro s hs
    rw [hview s hs]
    exact hw.wellFormed s hs

/-- A system whose rings are a rearrangement of its old rings and one unused ring. -/
theorem worldInv_setSystem {w : World K} (hw : WorldInv w) {k : ℕ} {s : SysObj K}
    (hk : w.systems[k]? = some s) {refs : List ℕ} (hnd : refs.Nodup)
    (hrefs : ∀ i ∈ refs, i < w.heap.length)
    (hown : ∀ i ∈ refs, i ∈ s.rings ∨ ¬ InUse w i)
    (hwf : WellFormed (w.view { s with rings := refs })) :
    WorldInv ⟨w.heap, w.systems.set k { s with rings := refs }⟩ := by
  have hsm := List.mem_of_getElem? hk
  have hkl : k < w.systems.length := (List.getElem?_eq_some_iff.1 hk).1
  have hks : w.systems[k] = s := (List.getElem?_eq_some_iff.1 hk).2
  refine ⟨hw.valid, ?_, ?_, ?_, ?_⟩
  · intro s' hs' i hi
    rcases List.mem_or_eq_of_mem_set hs' with h | rfl
    · exact hw.inHeap s' h i hi
    · exact hrefs i hi
  · rw [List.pairwise_iff_getElem]
    intro a b ha hb hab i hi hi'
    simp only [List.length_set] at ha hb
    have hold := List.pairwise_iff_getElem.1 hw.owned a b ha hb hab
    rw [List.getElem_set] at hi hi'
    split_ifs at hi hi' with h1 h2 h2
    · omega
    · subst h1
      simp only at hi
      rcases hown i hi with h | h
      · exact hold i (by rw [hks]; exact h) hi'
      · exact h ⟨_, List.getElem_mem hb, hi'⟩
    · subst h2
      simp only at hi'
      rcases hown i hi' with h | h
      · exact hold i hi (by rw [hks]; exact h)
      · exact h ⟨_, List.getElem_mem ha, hi⟩
    · exact hold i hi hi'
  · intro s' hs'
    rcases List.mem_or_eq_of_mem_set hs' with h | rfl
    · exact hw.nodup s' h
    · exact hnd
  · intro s' hs'
    rcases List.mem_or_eq_of_mem_set hs' with h | rfl
    · exact hw.wellFormed s' h
    · exact hwf

theorem map_ring_set_of_not_mem {w : World K} {ref : ℕ} {refs : List ℕ} (h : ref ∉ refs)
    (r : RingObj K) (sys : List (SysObj K)) :
    refs.map (World.ring ⟨w.heap.set ref r, sys⟩) = refs.map w.ring := by
  apply List.map_congr_left
  intro i hi
  have : ref ≠ i := by rintro rfl; exact h hi
  simp [World.ring, List.getElem?_set_ne this]

theorem ring_set_self {w : World K} {ref : ℕ} {r x : RingObj K} (h : w.heap[ref]? = some x)
    (sys : List (SysObj K)) : World.ring ⟨w.heap.set ref r, sys⟩ ref = r := by
  have : ref < w.heap.length := (List.getElem?_eq_some_iff.1 h).1
  simp [World.ring, this]

theorem set_same {α : Type} {l : List α} {i : ℕ} {x : α} (h : l[i]? = some x) : l.set i x = l := by
  apply List.ext_getElem?
  intro j
  by_cases hj : i = j
  · subst hj
    have : i < l.length := (List.getElem?_eq_some_iff.1 h).1
    rw [List.getElem?_set_self this, h]
  · rw [List.getElem?_set_ne hj]

/-- The two insertions (`add_ring` with `next = k`, `replace_ring` with `next = k + 1`). -/
theorem worldInv_insert {w : World K} (hw : WorldInv w) {k : ℕ} {s : SysObj K}
    (hk : w.systems[k]? = some s) {ref : ℕ} {r : RingObj K} (hr : w.heap[ref]? = some r)
    (hu : ¬ InUse w ref) {n next : ℕ} (hn : n ≤ next) (hn' : n ≤ s.rings.length)
    (hf : Fits (w.view s).rings n next r) :
    WorldInv ⟨w.heap.set ref (adopted (w.view s) r),
      w.systems.set k { s with rings := s.rings.take n ++ ref :: s.rings.drop next }⟩ := by
  have hsm := List.mem_of_getElem? hk
  have hwf := wellFormed_insert (hw.wellFormed s hsm) (world_valid_ring hw hr) hn
    (by simpa [World.view] using hn') hf
  have hrs : ref ∉ s.rings := fun h => hu ⟨s, hsm, h⟩
  have hv : ValidRing (adopted (w.view s) r) := hwf.valid _ (by simp)
  have hw' := worldInv_setHeap hw hu hv
  have hsub : ∀ i, i ∈ s.rings.take n ++ ref :: s.rings.drop next → i = ref ∨ i ∈ s.rings := by
    intro i hi
    simp only [List.mem_append, List.mem_cons] at hi
    rcases hi with h | h | h
    · exact Or.inr (List.mem_of_mem_take h)
    · exact Or.inl h
    · exact Or.inr (List.mem_of_mem_drop h)
  have hlt : ref < w.heap.length := (List.getElem?_eq_some_iff.1 hr).1
  refine worldInv_setSystem (w := ⟨w.heap.set ref (adopted (w.view s) r), w.systems⟩) hw' hk
    ?_ ?_ ?_ ?_
  · have h1 := hw.nodup s hsm
    have hsl : (s.rings.take n ++ s.rings.drop next).Sublist s.rings := by
      conv_rhs => rw [← List.take_append_drop n s.rings]
      refine List.Sublist.append (List.Sublist.refl _) ?_
      rw [show next = n + (next - n) by omega, ← List.drop_drop]
      exact List.drop_sublist _ _
    rw [List.nodup_middle, List.nodup_cons]
    exact ⟨fun h => hrs (hsl.subset h), h1.sublist hsl⟩
  · intro i hi
    simp only [List.length_set]
    rcases hsub i hi with rfl | h
    · exact hlt
    · exact hw.inHeap s hsm i h
  · intro i hi
    rcases hsub i hi with rfl | h
    · exact Or.inr hu
    · exact Or.inl h
  · have e : World.view ⟨w.heap.set ref (adopted (w.view s) r), w.systems⟩
        { s with rings := s.rings.take n ++ ref :: s.rings.drop next } =
        { w.view s with rings := (w.view s).rings.take n ++ adopted (w.view s) r ::
          (w.view s).rings.drop next } := by
      have h1 : ref ∉ s.rings.take n := fun h => hrs (List.mem_of_mem_take h)
      have h2 : ref ∉ s.rings.drop next := fun h => hrs (List.mem_of_mem_drop h)
      have h3 := map_ring_set_of_not_mem (w := w) h1 (adopted (w.view s) r) w.systems
      have h4 := map_ring_set_of_not_mem (w := w) h2 (adopted (w.view s) r) w.systems
      have h5 := ring_set_self (w := w) (r := adopted (w.view s) r) hr w.systems
      simp only [World.view, List.map_append, List.map_cons, h3, h4, h5] at *
      simp [List.map_take, List.map_drop]
    rw [e]
    exact hwf

theorem worldInv_add {w : World K} (hw : WorldInv w) (k : ℕ) (index : PyVal K) (ref : ℕ)
    (hb : ∀ b, index ≠ .bool b) (hu : ¬ InUse w ref) : WorldInv (w.add k index ref) := by
  unfold World.add
  cases hk : w.systems[k]? with
  | none => simpa using hw
  | some s =>
  cases hr : w.heap[ref]? with
  | none => simpa using hw
  | some r =>
  have hs := (hw.wellFormed s (List.mem_of_getElem? hk)).geometry
  simp only
  by_cases hi : ∃ n, IsIndex index n
  · obtain ⟨n, hn⟩ := hi
    cases h : (addRing index ⟨w.view s, r⟩).1 with
    | error e =>
      simp only [(C11_add_ring_error _ hs index n hn r e h).2, set_same hr]
      exact hw
    | ok u =>
      obtain ⟨h1, h2, h3⟩ := (C11_add_ring_ok_iff _ hs index n hn r).1 h
      have hle : n.toNat ≤ s.rings.length := by
        simp only [World.view, List.length_map] at h2; omega
      simp only [C11_add_ring_effect _ hs index n hn r h, isIndex_toInt hn,
        insertIdx_eq_take_append hle]
      exact worldInv_insert hw hk hr hu le_rfl hle h3
  · have h := addRing_not_index (s := w.view s) (ring := r) hb (by simpa using hi)
    have h' : ∃ e, (addRing index ⟨w.view s, r⟩).1 = .error e := by
      obtain ⟨e, he⟩ := number_not_index hb (by simpa using hi) (.int 0)
        (.int ((w.view s).rings.length : ℤ))
      refine ⟨e, ?_⟩
      have hp : preventOverlap (w.view s) index r = .error e := by
        unfold preventOverlap
        simp only [he, bind, Except.bind]
      unfold addRing
      simp only [Meth.get_bind, hp, Meth.lift_error_bind]
    obtain ⟨e, he⟩ := h'
    simp only [he, h, set_same hr]
    exact hw

theorem worldInv_replace {w : World K} (hw : WorldInv w) (k : ℕ) (index : PyVal K) (ref : ℕ)
    (hb : ∀ b, index ≠ .bool b) (hu : ¬ InUse w ref) : WorldInv (w.replace k index ref) := by
  unfold World.replace
  cases hk : w.systems[k]? with
  | none => simpa using hw
  | some s =>
  cases hr : w.heap[ref]? with
  | none => simpa using hw
  | some r =>
  have hs := (hw.wellFormed s (List.mem_of_getElem? hk)).geometry
  simp only
  by_cases hi : ∃ n, IsIndex index n
  · obtain ⟨n, hn⟩ := hi
    cases h : (replaceRing index ⟨w.view s, r⟩).1 with
    | error e =>
      simp only [(C13_replace_ring_error _ hs index n hn r e h).2, set_same hr]
      exact hw
    | ok u =>
      obtain ⟨h1, h2, h3⟩ := (C13_replace_ring_ok_iff _ hs index n hn r).1 h
      have hlt : n.toNat < s.rings.length := by
        simp only [World.view, List.length_map] at h2; omega
      have hassign : npAssign s.rings index ref =
          s.rings.take n.toNat ++ ref :: s.rings.drop (n.toNat + 1) := by
        have : npAssign s.rings index ref = s.rings.set n.toNat ref := by
          obtain ⟨hn, hb⟩ := hn
          cases hn <;> simp_all [npAssign, PyVal.toInt]
        rw [this, List.set_eq_take_append_cons_drop, if_pos hlt]
      simp only [C13_replace_ring_effect _ hs index n hn r h, hassign]
      exact worldInv_insert hw hk hr hu (by omega) hlt.le h3
  · have h := replaceRing_not_index (s := w.view s) (ring := r) hb (by simpa using hi)
    have h' : ∃ e, (replaceRing index ⟨w.view s, r⟩).1 = .error e := by
      obtain ⟨e, he⟩ := number_not_index hb (by simpa using hi) (.int 0)
        (.int (((w.view s).rings.length : ℤ) - 1))
      refine ⟨e, ?_⟩
      unfold replaceRing
      simp only [Meth.get_bind, he, Meth.lift_error_bind]
    obtain ⟨e, he⟩ := h'
    simp only [he, h, set_same hr]
    exact hw

theorem worldInv_remove {w : World K} (hw : WorldInv w) (k : ℕ) (index : PyVal K)
    (hb : ∀ b, index ≠ .bool b) : WorldInv (w.remove k index) := by
  unfold World.remove
  cases hk : w.systems[k]? with
  | none => simpa using hw
  | some s =>
  have hsm := List.mem_of_getElem? hk
  simp only
  by_cases hi : ∃ n, IsIndex index n
  · obtain ⟨n, hn⟩ := hi
    obtain ⟨h1, h2⟩ := C12_remove_ring (w.view s) index n hn
    by_cases h : 0 ≤ n ∧ n < (w.view s).rings.length
    · rw [h1 h]
      simp only [isIndex_toInt hn]
      have hsub := List.eraseIdx_sublist s.rings n.toNat
      refine worldInv_setSystem hw hk ((hw.nodup s hsm).sublist hsub)
        (fun i hi => hw.inHeap s hsm i (hsub.subset hi)) (fun i hi => Or.inl (hsub.subset hi)) ?_
      have hwf := hw.wellFormed s hsm
      have hsub' : (World.view w { s with rings := s.rings.eraseIdx n.toNat }).rings.Sublist
          (w.view s).rings := List.Sublist.map _ hsub
      exact ⟨hwf.geometry, fun r hr => hwf.valid r (hsub'.subset hr),
        fun r hr => hwf.inclined r (hsub'.subset hr), fun r hr => hwf.tilted r (hsub'.subset hr),
        hwf.ordered.sublist hsub'⟩
    · rw [h2 h]; exact hw
  · obtain ⟨e, he⟩ := number_not_index hb (by simpa using hi) (.int 0)
        (.int (((w.view s).rings.length : ℤ) - 1))
    have : (removeRing index (w.view s)).1 = .error e := by
      unfold removeRing
      simp only [Meth.get_bind, he, Meth.lift_error_bind]
    simp only [this]
    exact hw

theorem map_ring_alloc (w : World K) (rings : List (RingObj K)) (sys : List (SysObj K)) :
    (List.range' w.heap.length rings.length).map (World.ring ⟨w.heap ++ rings, sys⟩) = rings := by
  apply List.ext_getElem
  · simp
  · intro i h1 h2
    simp [World.ring, h2]

theorem view_append {w : World K} (hw : WorldInv w) (rings : List (RingObj K))
    (sys : List (SysObj K)) {s : SysObj K} (hs : s ∈ w.systems) :
    World.view ⟨w.heap ++ rings, sys⟩ s = w.view s := by
  unfold World.view
  congr 1
  apply List.map_congr_left
  intro i hi
  simp [World.ring, List.getElem?_append_left (hw.inHeap s hs i hi)]

theorem worldInv_append {w : World K} (hw : WorldInv w) (rings : List (RingObj K))
    (hr : ∀ r ∈ rings, ValidRing r) : WorldInv ⟨w.heap ++ rings, w.systems⟩ := by
  refine ⟨?_, ?_, hw.owned, hw.nodup, ?_⟩
  · intro r h
    rcases List.mem_append.1 h with h | h
    · exact hw.valid r h
    · exact hr r h
  · intro s hs i hi
    have := hw.inHeap s hs i hi
    simp only [List.length_append]; omega
  · intro s hs
    rw [view_append hw rings w.systems hs]
    exact hw.wellFormed s hs

theorem not_inUse_new {w : World K} (hw : WorldInv w) (rings : List (RingObj K)) {i : ℕ}
    (h : w.heap.length ≤ i) : ¬ InUse ⟨w.heap ++ rings, w.systems⟩ i := by
  rintro ⟨s, hs, hi⟩
  have := hw.inHeap s hs i hi
  omega

theorem worldInv_renew {w : World K} (hw : WorldInv w) (k : ℕ) (m : Meth (RSys K) Unit)
    (hm : ∀ s, WellFormed s → WellFormed (m s).2)
    (hgeo : ∀ s, (m s).2.inclination = s.inclination ∧ (m s).2.tilt = s.tilt ∧
      (m s).2.planet = s.planet) : WorldInv (w.renew k m) := by
  unfold World.renew
  cases hk : w.systems[k]? with
  | none => simpa using hw
  | some s =>
  have hsm := List.mem_of_getElem? hk
  simp only
  have h1 := hm _ (hw.wellFormed s hsm)
  obtain ⟨h2, h3, h4⟩ := hgeo (w.view s)
  rcases hout : m (w.view s) with ⟨res, s'⟩
  rw [hout] at h1 h2 h3 h4
  cases res with
  | error e => exact hw
  | ok u =>
    simp only [World.alloc]
    have hw' := worldInv_append hw s'.rings h1.valid
    refine worldInv_setSystem (w := ⟨w.heap ++ s'.rings, w.systems⟩) hw' hk List.nodup_range' ?_ ?_ ?_
    · intro i hi
      have := List.mem_range'_1.1 hi
      simp only [List.length_append]; omega
    · intro i hi
      exact Or.inr (not_inUse_new hw s'.rings (List.mem_range'_1.1 hi).1)
    · have e : World.view ⟨w.heap ++ s'.rings, w.systems⟩
          { s with rings := List.range' w.heap.length s'.rings.length } = s' := by
        unfold World.view
        simp only [map_ring_alloc]
        cases s'
        simp_all [World.view]
      rw [e]
      exact h1

theorem splitRings_geometry [FloorRing K] (nd : PyVal K) (s : RSys K) :
    (splitRings id nd s).2.inclination = s.inclination ∧ (splitRings id nd s).2.tilt = s.tilt ∧
      (splitRings id nd s).2.planet = s.planet := by
  unfold splitRings
  cases h : divisions s nd with
  | error e => simp [h]
  | ok ds => cases h' : splitLoop id s (s.rings.zip ds) <;> simp [h, h']

theorem mergeRings_geometry (tol : XF K) (s : RSys K) :
    (mergeRings id tol s).2.inclination = s.inclination ∧ (mergeRings id tol s).2.tilt = s.tilt ∧
      (mergeRings id tol s).2.planet = s.planet := by
  unfold mergeRings
  cases h : s.rings with
  | nil => simp [h]
  | cons r rs =>
    cases h' : mergeLoop id s tol r.inner r.inner r.transmission (r :: rs) <;> simp [h, h']

theorem worldInv_step [FloorRing K] {w : World K} (hw : WorldInv w) (op : WorldOp K)
    (hop : Disciplined w op) : WorldInv (op.exec w) := by
  cases op with
  | newRing i o t inc p =>
    obtain ⟨h1, h2, h3, h4, h5⟩ := hop
    simp only [WorldOp.exec]
    cases h : newRing i o t inc p with
    | error e => exact hw
    | ok r =>
      exact worldInv_append hw [r] (by
        intro x hx; rw [List.mem_singleton.1 hx]; exact newRing_valid h1 h2 h3 h4 h5 h)
  | editRing ref op =>
    obtain ⟨hu, hn⟩ := hop
    simp only [WorldOp.exec]
    cases h : w.heap[ref]? with
    | none => exact hw
    | some r => exact worldInv_setHeap hw hu (run_valid (world_valid_ring hw h) hn)
  | newSystem p i o t inc phi =>
    obtain ⟨h1, h2, ai, ao, at', rfl, rfl, rfl, h3, h4⟩ := hop
    simp only [WorldOp.exec]
    cases h : newSystem p (.arr ai) (.arr ao) (.arr at') inc phi with
    | error e => exact hw
    | ok s =>
      have hwf := C08_constructor p inc phi ai ao at' s h h1 h2 h3 h4
      have hw' := worldInv_append hw s.rings hwf.valid
      simp only [World.alloc]
      refine ⟨hw'.valid, ?_, ?_, ?_, ?_⟩
      · intro x hx i hi
        rcases List.mem_append.1 hx with hx | hx
        · exact hw'.inHeap x hx i hi
        · rw [List.mem_singleton.1 hx] at hi
          have := List.mem_range'_1.1 hi
          simp only [List.length_append]; omega
      · refine List.pairwise_append.2 ⟨hw.owned, by simp, ?_⟩
        intro a ha b hb i hi hi'
        rw [List.mem_singleton.1 hb] at hi'
        have h1 := List.mem_range'_1.1 hi'
        have h2 := hw.inHeap a ha i hi
        omega
      · intro x hx
        rcases List.mem_append.1 hx with hx | hx
        · exact hw.nodup x hx
        · rw [List.mem_singleton.1 hx]; exact List.nodup_range'
      · intro x hx
        rcases List.mem_append.1 hx with hx | hx
        · have := view_append hw s.rings (w.systems ++ [⟨s.planet, s.inclination, s.tilt,
            List.range' w.heap.length s.rings.length⟩]) hx
          rw [this]; exact hw.wellFormed x hx
        · rw [List.mem_singleton.1 hx]
          have := map_ring_alloc w s.rings (w.systems ++ [⟨s.planet, s.inclination, s.tilt,
            List.range' w.heap.length s.rings.length⟩])
          unfold World.view
          simp only [this]
          exact hwf
  | setInclination k x => exact absurd hop id
  | setTilt k x => exact absurd hop id
  | add k i ref => exact worldInv_add hw k i ref hop.1 hop.2
  | remove k i => exact worldInv_remove hw k i hop
  | replace k i ref => exact worldInv_replace hw k i ref hop.1 hop.2
  | split k nd =>
    exact worldInv_renew hw k _ (fun s hs => C08_step s hs (.split nd) trivial)
      (splitRings_geometry nd)
  | merge k tol =>
    exact worldInv_renew hw k _ (fun s hs => C08_step s hs (.merge tol) trivial)
      (mergeRings_geometry tol)

theorem worldInv_run [FloorRing K] (ops : List (WorldOp K)) {w : World K} (hw : WorldInv w)
    (h : DisciplinedRun w ops) : WorldInv (runWorld ops w) := by
  induction ops generalizing w with
  | nil => exact hw
  | cons op ops ih => exact ih (worldInv_step hw op h.1) h.2

theorem worldInv_empty : WorldInv (⟨[], []⟩ : World K) :=
  ⟨by simp, by simp, by simp, by simp, by simp⟩

/-! ## C09 and C10 -/

/-- **C09 (partial)** In every state that a disciplined program reaches, starting with no objects,
no system has overlapping rings.  Missing for the full claim: programs that pass overlapping radii
to the constructor or edit a ring of a system, where it is false (`C09_false_constructor`,
`C09_false_edit`). -/
theorem C09_no_overlap_partial [FloorRing K] (ops : List (WorldOp K))
    (h : DisciplinedRun (⟨[], []⟩ : World K) ops) : NoOverlap (runWorld ops ⟨[], []⟩) :=
  fun s hs => ((worldInv_run ops worldInv_empty h).wellFormed s hs).ordered

/-- **C10 (partial)** In every state that a disciplined program reaches, starting with no objects,
every ring has the inclination and the tilt of its system.  Missing for the full claim: programs
that share a ring object between systems, edit it, or assign the geometry attributes of a system,
where it is false (`C10_false_sharing`, `C10_false_attribute`). -/
theorem C10_same_geometry_partial [FloorRing K] (ops : List (WorldOp K))
    (h : DisciplinedRun (⟨[], []⟩ : World K) ops) : SameGeometry (runWorld ops ⟨[], []⟩) := by
  intro s hs ref hr
  have hwf := (worldInv_run ops worldInv_empty h).wellFormed s hs
  exact ⟨hwf.inclined _ (List.mem_map_of_mem hr), hwf.tilted _ (List.mem_map_of_mem hr)⟩

/-- The call `RingSystem(1, inner, outer, 0, inclination, 0)`. -/
def exampleSystem (inner outer : List ℚ) (inc : ℚ) : WorldOp ℚ :=
  .newSystem (.int 1) (.arr ⟨"float64", [inner.length], inner.map .fin⟩)
    (.arr ⟨"float64", [outer.length], outer.map .fin⟩)
    (.arr ⟨"float64", [inner.length], inner.map fun _ => .fin 0⟩) (.float (.fin inc)) (.int 0)

/-- Non-vacuity: building a system and adding a ring to it respects ownership, and the ring is
really added. -/
example : DisciplinedRun (⟨[], []⟩ : World ℚ) [exampleSystem [3] [4] 10,
    .newRing (.int 1) (.int 2) (.int 0) (.int 0) (.int 0), .add 0 (.int 0) 1, .split 0 (.int 3)] := by
  have hint : ∀ n, NotNan (.int n : PyVal ℚ) := by
    rintro n (⟨_, h', h⟩ | ⟨_, h'⟩)
    · cases h
    · cases h'
  refine ⟨⟨notNan_float (by simp), hint 0, _, _, _, rfl, rfl, rfl, by simp, by simp [OrderedRadii]⟩,
    ⟨hint 1, hint 2, hint 0, hint 0, hint 0⟩, ⟨by simp, ?_⟩, trivial, trivial⟩
  have : WorldOp.exec (WorldOp.exec ⟨[], []⟩ (exampleSystem [3] [4] 10))
      (.newRing (.int 1) (.int 2) (.int 0) (.int 0) (.int 0)) =
      ⟨[⟨.fin 3, .fin 4, .fin 0, .fin 10, .fin 0⟩, ⟨.fin 1, .fin 2, .fin 0, .fin 0, .fin 0⟩],
        [⟨.fin 1, .fin 10, .fin 0, [0]⟩]⟩ := by decide +kernel
  rw [this]
  simp [InUse]

example : ((runWorld [exampleSystem [3] [4] 10,
    .newRing (.int 1) (.int 2) (.int 0) (.int 0) (.int 0), .add 0 (.int 0) 1, .split 0 (.int 3)]
    (⟨[], []⟩ : World ℚ)).systems.map (·.rings)) = [[2, 3, 4, 5, 6, 7]] := by decide +kernel

/-- **C09 is false**: the constructor accepts overlapping radii. -/
theorem C09_false_constructor : ¬ NoOverlap (runWorld [exampleSystem [1, 2] [3, 4] 10] ⟨[], []⟩) := by
  have : (runWorld [exampleSystem [1, 2] [3, 4] 10] ⟨[], []⟩) =
    ⟨[⟨.fin 1, .fin 3, .fin 0, .fin 10, .fin 0⟩, ⟨.fin 2, .fin 4, .fin 0, .fin 10, .fin 0⟩],
      [⟨.fin 1, .fin 10, .fin 0, [0, 1]⟩]⟩ := by decide +kernel
  rw [this]
  intro h
  have := h _ (List.mem_singleton.2 rfl)
  simp [World.ring, lessEq_iff] at this
  norm_num at this

/-- **C09 is false**: a ring that was added to a system can be enlarged afterwards so that it
covers its neighbour. -/
theorem C09_false_edit : ∃ ops : List (WorldOp ℚ),
    ¬ NoOverlap (runWorld (exampleSystem [3] [4] 10 ::
      .newRing (.int 1) (.int 2) (.int 0) (.int 0) (.int 0) :: .add 0 (.int 0) 1 :: ops) ⟨[], []⟩) := by
  refine ⟨[.editRing 1 (.outer (.int 5))], ?_⟩
  have : (runWorld [exampleSystem [3] [4] 10,
      .newRing (.int 1) (.int 2) (.int 0) (.int 0) (.int 0), .add 0 (.int 0) 1,
      .editRing 1 (.outer (.int 5))] ⟨[], []⟩) =
    ⟨[⟨.fin 3, .fin 4, .fin 0, .fin 10, .fin 0⟩, ⟨.fin 1, .fin 5, .fin 0, .fin 10, .fin 0⟩],
      [⟨.fin 1, .fin 10, .fin 0, [1, 0]⟩]⟩ := by decide +kernel
  rw [this]
  intro h
  have := h _ (List.mem_singleton.2 rfl)
  simp [World.ring, lessEq_iff] at this
  norm_num at this

/-- **C10 is false**: adding one ring object to two systems re-inclines the ring of the first. -/
theorem C10_false_sharing : ¬ SameGeometry (runWorld [exampleSystem [3] [4] 10,
    exampleSystem [3] [4] 20, .newRing (.int 1) (.int 2) (.int 0) (.int 0) (.int 0),
    .add 0 (.int 0) 2, .add 1 (.int 0) 2] ⟨[], []⟩) := by
  have : (runWorld [exampleSystem [3] [4] 10,
    exampleSystem [3] [4] 20, .newRing (.int 1) (.int 2) (.int 0) (.int 0) (.int 0),
    .add 0 (.int 0) 2, .add 1 (.int 0) 2] ⟨[], []⟩) =
    ⟨[⟨.fin 3, .fin 4, .fin 0, .fin 10, .fin 0⟩, ⟨.fin 3, .fin 4, .fin 0, .fin 20, .fin 0⟩,
      ⟨.fin 1, .fin 2, .fin 0, .fin 20, .fin 0⟩],
      [⟨.fin 1, .fin 10, .fin 0, [2, 0]⟩, ⟨.fin 1, .fin 20, .fin 0, [2, 1]⟩]⟩ := by decide +kernel
  rw [this]
  intro h
  have := (h _ (List.mem_cons_self ..) 2 (by simp)).1
  simp [World.ring] at this

/-- **C10 is false**: the `inclination` of a system is a plain attribute. -/
theorem C10_false_attribute : ¬ SameGeometry (runWorld [exampleSystem [3] [4] 10,
    .setInclination 0 (.fin 20)] ⟨[], []⟩) := by
  have : (runWorld [exampleSystem [3] [4] 10, .setInclination 0 (.fin 20)] ⟨[], []⟩) =
    ⟨[⟨.fin 3, .fin 4, .fin 0, .fin 10, .fin 0⟩], [⟨.fin 1, .fin 20, .fin 0, [0]⟩]⟩ := by
    decide +kernel
  rw [this]
  intro h
  have := (h _ (List.mem_cons_self ..) 0 (by simp)).1
  simp [World.ring] at this

end Beyonce
