import Verif.RingSystem
import Verif.Props.Ring

/-!
# Properties C11–C13, C20, C69: editing a ring system (`add_ring`, `remove_ring`, `replace_ring`)
-/

set_option linter.unusedSectionVars false

namespace Beyonce
open Spec
variable {K : Type} [Field K] [LinearOrder K]

/-- The geometry of the system is one that a ring can have (what the constructor checks). -/
def Spec.GoodGeometry (s : RSys K) : Prop :=
  ∃ i p : K, s.inclination = .fin i ∧ s.tilt = .fin p ∧ 0 ≤ i ∧ i ≤ 90 ∧ -180 ≤ p ∧ p ≤ 180

/-- `index` is an integer argument (of any accepted integer type but `bool`) with value `k`. -/
def Spec.IsIndex (index : PyVal K) (k : ℤ) : Prop :=
  IsInteger index k ∧ ∀ b, index ≠ .bool b

/-- The ring fits at position `k` when the rings up to `k` lie below it and the rings from
`next` on lie above it. -/
def Spec.Fits (rings : List (RingObj K)) (k next : ℕ) (ring : RingObj K) : Prop :=
  (∀ r, rings[k - 1]? = some r → 0 < k → ¬ Less ring.inner r.outer) ∧
  (∀ r, rings[next]? = some r → ¬ Less r.inner ring.outer)

/-- The ring with the inclination and tilt of the system. -/
def Spec.adopted (s : RSys K) (r : RingObj K) : RingObj K :=
  { r with inclination := s.inclination, tilt := s.tilt }

/-! ## Helper lemmas -/

theorem isIndex_toInt {index : PyVal K} {k : ℤ} (h : IsIndex index k) : index.toInt = k := by
  obtain ⟨h, h'⟩ := h
  cases h <;> simp [PyVal.toInt]

theorem isIndex_isBool {index : PyVal K} {k : ℤ} (h : IsIndex index k) : index.isBool = false := by
  obtain ⟨h, h'⟩ := h
  cases h <;> simp_all [PyVal.isBool]

theorem insertIdx_eq_take_append {α : Type} {l : List α} {n : ℕ} (h : n ≤ l.length) (x : α) :
    l.insertIdx n x = l.take n ++ x :: l.drop n := by
  induction l generalizing n with
  | nil => simp at h; subst h; rfl
  | cons y l ih =>
    cases n with
    | zero => rfl
    | succ n => simp [ih (by simpa using h)]

variable [IsStrictOrderedRing K]

theorem number_index {index : PyVal K} {k : ℤ} (h : IsInteger index k) (l u : ℤ) :
    number index (.bool true) (.int l) (.int u) =
      if l ≤ u ∧ l ≤ k ∧ k ≤ u then .ok index else .error .valueError := by
  have e : ∀ a b : ℤ, Less (.fin (a : K)) (.fin b) ↔ a < b := by
    intro a b; rw [less_iff]; simp
  have hv : ∀ x, IsNumber true index x → x = .fin (k : K) := by
    rintro x (⟨n, hn, rfl⟩ | ⟨hh, _⟩)
    · rw [← isInteger_num hn, isInteger_num h]
    · cases hh
  have hA : Acceptable true false index (.int l) (.int u) ↔ l ≤ u ∧ l ≤ k ∧ k ≤ u := by
    constructor
    · rintro ⟨x, a, b, h1, h2, h3, h4, h5⟩
      have := hv x h1; subst this
      have := isNumber_num h2; subst this
      have := isNumber_num h3; subst this
      simp only [PyVal.num_int, Violates, Bool.false_eq_true, if_false, e] at h4 h5
      omega
    · rintro ⟨h1, h2, h3⟩
      refine ⟨.fin k, .fin l, .fin u, Or.inl ⟨k, h, rfl⟩, Or.inl ⟨l, .int l, rfl⟩,
        Or.inl ⟨u, .int u, rfl⟩, ?_, ?_⟩
      · rw [e]; omega
      · simp only [Violates, Bool.false_eq_true, if_false, e]; omega
  split_ifs with hc
  · exact (C01_number_ok_iff _ _ _ _ _ _).2 ⟨rfl, hA.2 hc⟩
  · exact (C01_number_errors _ _ _ _ _ (fun h => hc (hA.1 h))).1
      ⟨⟨_, Or.inl ⟨k, h, rfl⟩⟩, ⟨_, Or.inl ⟨l, .int l, rfl⟩⟩, ⟨_, Or.inl ⟨u, .int u, rfl⟩⟩⟩

theorem overrideGeometry_good {s : RSys K} (hs : GoodGeometry s) (r : RingObj K) :
    overrideGeometry s r = (.ok (), adopted s r) := by
  obtain ⟨i, p, hi, hp, h1, h2, h3, h4⟩ := hs
  unfold overrideGeometry RingObj.setInclination RingObj.setTilt
  simp [hi, hp, checkInclination_fin, checkTilt_fin, h1, h2, h3, h4, Meth.bind_apply, adopted]

theorem overrideCallersRing_good {s : RSys K} (hs : GoodGeometry s) (r : RingObj K) :
    overrideCallersRing ⟨s, r⟩ = (.ok (), ⟨s, adopted s r⟩) := by
  simp [overrideCallersRing, overrideGeometry_good hs]

theorem lowerNeighbour_spec (rings : List (RingObj K)) (k : ℤ) (h0 : 0 ≤ k)
    (h1 : k ≤ rings.length) (ring : RingObj K) : ∃ lower, lowerNeighbour rings k = .ok lower ∧
      (XF.lt ring.inner lower = false ↔
        ∀ r, rings[k.toNat - 1]? = some r → 0 < k.toNat → ¬ Less ring.inner r.outer) := by
  unfold lowerNeighbour
  by_cases h : k = 0
  · subst h; exact ⟨.ninf, by simp, by simp⟩
  · have hlt : (k - 1).toNat < rings.length := by omega
    have he : (k - 1).toNat = k.toNat - 1 := by omega
    have hp : 0 < k.toNat := by omega
    rw [he] at hlt
    refine ⟨(rings[k.toNat - 1]).outer, ?_, ?_⟩
    · rw [if_neg h, he, List.getElem?_eq_getElem hlt]
    · simp [List.getElem?_eq_getElem hlt, hp, less_iff]

theorem upperNeighbour_spec (rings : List (RingObj K)) (j : ℤ) (h0 : 0 ≤ j)
    (h1 : j ≤ rings.length) (ring : RingObj K) : ∃ upper, upperNeighbour rings j false = .ok upper ∧
      (XF.lt upper ring.outer = false ↔
        ∀ r, rings[j.toNat]? = some r → ¬ Less r.inner ring.outer) := by
  unfold upperNeighbour
  by_cases h : j = rings.length
  · refine ⟨.pinf, by simp [h], ?_⟩
    have : rings[j.toNat]? = none := by simp [h]
    simp [this]
  · have hlt : j.toNat < rings.length := by omega
    refine ⟨(rings[j.toNat]).inner, ?_, ?_⟩
    · simp [h, List.getElem?_eq_getElem hlt]
    · simp [List.getElem?_eq_getElem hlt, less_iff]

/-- Outcome of `_prevent_ring_overlap` for an integer index. -/
theorem preventOverlap_eq {s : RSys K} {index : PyVal K} {k : ℤ} (h : IsIndex index k)
    (ring : RingObj K) (rep : Bool) (hrep : rep = true → k < s.rings.length) :
    (0 ≤ k ∧ k ≤ s.rings.length ∧
        Fits s.rings k.toNat (if rep then k.toNat + 1 else k.toNat) ring →
      preventOverlap s index ring rep = .ok ()) ∧
    (¬ (0 ≤ k ∧ k ≤ s.rings.length ∧
        Fits s.rings k.toNat (if rep then k.toNat + 1 else k.toNat) ring) →
      preventOverlap s index ring rep = .error .valueError) := by
  unfold preventOverlap
  rw [number_index h.1, isIndex_toInt h, isIndex_isBool h]
  by_cases hk : (0 : ℤ) ≤ s.rings.length ∧ 0 ≤ k ∧ k ≤ s.rings.length
  swap
  · simp only [hk, if_false, bind, Except.bind]
    refine ⟨?_, fun _ => trivial⟩
    rintro ⟨h1, h2, _⟩; exact absurd ⟨by omega, h1, h2⟩ hk
  obtain ⟨hk0, hk1, hk2⟩ := hk
  obtain ⟨lower, hl, hl'⟩ := lowerNeighbour_spec s.rings k hk1 hk2 ring
  have he : (if rep = true then k + 1 else k).toNat = if rep then k.toNat + 1 else k.toNat := by
    split_ifs <;> omega
  have hle : (if rep = true then k + 1 else k) ≤ s.rings.length := by
    split_ifs with h'
    · have := hrep h'; omega
    · omega
  obtain ⟨upper, hu, hu'⟩ := upperNeighbour_spec s.rings (if rep = true then k + 1 else k)
    (by split_ifs <;> omega) hle ring
  rw [he] at hu'
  simp only [hk0, hk1, hk2, and_self, if_true, bind, Except.bind, true_and, Bool.false_and, hl, hu]
  unfold Fits
  rw [← hl', ← hu']
  cases XF.lt ring.inner lower <;> cases XF.lt upper ring.outer <;> simp

theorem preventOverlap_ok_iff {s : RSys K} {index : PyVal K} {k : ℤ} (h : IsIndex index k)
    (ring : RingObj K) (rep : Bool) (hrep : rep = true → k < s.rings.length) :
    preventOverlap s index ring rep = .ok () ↔
      0 ≤ k ∧ k ≤ s.rings.length ∧
        Fits s.rings k.toNat (if rep then k.toNat + 1 else k.toNat) ring := by
  have := preventOverlap_eq h (s := s) ring rep hrep
  constructor
  · intro h'; by_contra hc; rw [this.2 hc] at h'; cases h'
  · exact this.1

/-- `_prevent_ring_overlap` either accepts or raises `ValueError` for an integer index. -/
theorem preventOverlap_error {s : RSys K} {index : PyVal K} {k : ℤ} (h : IsIndex index k)
    (ring : RingObj K) (rep : Bool) (hrep : rep = true → k < s.rings.length) (e : Err)
    (he : preventOverlap s index ring rep = .error e) : e = .valueError := by
  have := preventOverlap_eq h (s := s) ring rep hrep
  by_cases hc : 0 ≤ k ∧ k ≤ s.rings.length ∧
        Fits s.rings k.toNat (if rep then k.toNat + 1 else k.toNat) ring
  · rw [this.1 hc] at he; cases he
  · rw [this.2 hc] at he; cases he; rfl

/-! ## C11 -/

/-- **C11** `add_ring(k, ring)` succeeds exactly if `0 ≤ k ≤ n` and the ring fits between the
rings `k-1` and `k`. -/
theorem C11_add_ring_ok_iff (s : RSys K) (hs : GoodGeometry s) (index : PyVal K) (k : ℤ)
    (hk : IsIndex index k) (ring : RingObj K) :
    (addRing index ⟨s, ring⟩).1 = .ok () ↔
      0 ≤ k ∧ k ≤ s.rings.length ∧ Fits s.rings k.toNat k.toNat ring := by
  have := preventOverlap_ok_iff hk (s := s) ring false (by simp)
  simp only [Bool.false_eq_true, if_false] at this
  rw [← this]
  unfold addRing
  simp only [Meth.get_bind]
  cases h : preventOverlap s index ring false with
  | error e => simp
  | ok u => simp [Meth.bind_apply, overrideCallersRing_good hs]

/-- **C11** When `add_ring(k, ring)` succeeds, the new ring list is the old one with the ring,
carrying the geometry of the system, inserted before position `k`; nothing else of the system
changes, and the caller's ring has the new geometry too. -/
theorem C11_add_ring_effect (s : RSys K) (hs : GoodGeometry s) (index : PyVal K) (k : ℤ)
    (hk : IsIndex index k) (ring : RingObj K) (h : (addRing index ⟨s, ring⟩).1 = .ok ()) :
    (addRing index ⟨s, ring⟩).2 =
      ⟨{ s with rings := s.rings.take k.toNat ++ adopted s ring :: s.rings.drop k.toNat },
        adopted s ring⟩ := by
  have hle : k.toNat ≤ s.rings.length := by
    have := ((C11_add_ring_ok_iff s hs index k hk ring).1 h); omega
  unfold addRing at *
  simp only [Meth.get_bind] at *
  cases h' : preventOverlap s index ring false with
  | error e => rw [h'] at h; simp at h
  | ok u =>
    simp [Meth.bind_apply, overrideCallersRing_good hs, isIndex_toInt hk]
    exact insertIdx_eq_take_append hle _

/-- **C11** When `add_ring` raises it raises `ValueError`, and neither the system nor the ring
has changed. -/
theorem C11_add_ring_error (s : RSys K) (hs : GoodGeometry s) (index : PyVal K) (k : ℤ)
    (hk : IsIndex index k) (ring : RingObj K) (e : Err)
    (h : (addRing index ⟨s, ring⟩).1 = .error e) :
    e = .valueError ∧ (addRing index ⟨s, ring⟩).2 = ⟨s, ring⟩ := by
  unfold addRing at *
  simp only [Meth.get_bind] at *
  cases h' : preventOverlap s index ring false with
  | error e' =>
    have := preventOverlap_error hk ring false (by simp) e' h'
    rw [h'] at h
    simp only [Meth.lift_error_bind, Except.error.injEq] at h ⊢
    exact ⟨by rw [← h, this], trivial⟩
  | ok u => rw [h'] at h; simp [Meth.bind_apply, overrideCallersRing_good hs] at h

/-- Non-vacuity: a successful and a failing insertion. -/
example : ((addRing (.int 1) ⟨⟨.fin 1, .fin 10, .fin 20,
      [⟨.fin 1, .fin 2, .fin 0, .fin 10, .fin 20⟩, ⟨.fin 3, .fin 4, .fin 0, .fin 10, .fin 20⟩]⟩,
      ⟨.fin 2, .fin (5/2), .fin (1/2), .fin 0, .fin 0⟩⟩ :
      Except Err Unit × SysAndRing ℚ).2.sys.rings.map (·.inner)) = [.fin 1, .fin 2, .fin 3] := by
  decide +kernel
example : ((addRing (.int 1) ⟨⟨.fin 1, .fin 10, .fin 20,
      [⟨.fin 1, .fin 2, .fin 0, .fin 10, .fin 20⟩, ⟨.fin 3, .fin 4, .fin 0, .fin 10, .fin 20⟩]⟩,
      ⟨.fin 2, .fin (7/2), .fin (1/2), .fin 0, .fin 0⟩⟩ :
      Except Err Unit × SysAndRing ℚ).1) = .error .valueError := by
  decide +kernel

/-! ## C12 -/

/-- **C12** `remove_ring(k)` succeeds exactly if `0 ≤ k < n`, and then removes exactly the ring
at position `k`; otherwise it raises `ValueError` and nothing changes. -/
theorem C12_remove_ring (s : RSys K) (index : PyVal K) (k : ℤ) (hk : IsIndex index k) :
    (0 ≤ k ∧ k < s.rings.length → removeRing index s =
      (.ok (), { s with rings := s.rings.take k.toNat ++ s.rings.drop (k.toNat + 1) })) ∧
    (¬ (0 ≤ k ∧ k < s.rings.length) → removeRing index s = (.error .valueError, s)) := by
  unfold removeRing
  simp only [Meth.get_bind, number_index hk.1, npDelete, isIndex_isBool hk, isIndex_toInt hk]
  constructor
  · intro h
    rw [if_pos (by omega)]
    simp [List.eraseIdx_eq_take_drop_succ]
  · intro h
    rw [if_neg (by omega)]
    simp

/-- **C12** `remove_ring(k)` undoes `add_ring(k, ring)`. -/
theorem C12_remove_undoes_add (s : RSys K) (hs : GoodGeometry s) (index : PyVal K) (k : ℤ)
    (hk : IsIndex index k) (ring : RingObj K) (h : (addRing index ⟨s, ring⟩).1 = .ok ()) :
    removeRing index (addRing index ⟨s, ring⟩).2.sys = (.ok (), s) := by
  have h1 := (C11_add_ring_ok_iff s hs index k hk ring).1 h
  rw [C11_add_ring_effect s hs index k hk ring h]
  have hle : k.toNat ≤ s.rings.length := by omega
  rw [(C12_remove_ring _ index k hk).1 (by simp; omega)]
  congr 1
  cases s with
  | mk a b c rings =>
    simp only [RSys.mk.injEq, true_and]
    have h2 : (List.take k.toNat rings).length = k.toNat := by
      rw [List.length_take]; simpa using hle
    simp only at *
    rw [List.take_append_of_le_length (by omega), List.take_of_length_le (by omega),
      List.drop_append, h2]
    simp [List.drop_of_length_le (show (List.take k.toNat rings).length ≤ k.toNat + 1 by omega)]

example : removeRing (.int 0) (⟨.fin 1, .fin 10, .fin 20,
      [⟨.fin 1, .fin 2, .fin 0, .fin 10, .fin 20⟩, ⟨.fin 3, .fin 4, .fin 0, .fin 10, .fin 20⟩]⟩ : RSys ℚ)
    = (.ok (), ⟨.fin 1, .fin 10, .fin 20, [⟨.fin 3, .fin 4, .fin 0, .fin 10, .fin 20⟩]⟩) := by
  decide +kernel
example : removeRing (.int 0) (⟨.fin 1, .fin 10, .fin 20, []⟩ : RSys ℚ)
    = (.error .valueError, ⟨.fin 1, .fin 10, .fin 20, []⟩) := by
  decide +kernel

/-! ## C13 -/

/-- **C13** `replace_ring(k, ring)` succeeds exactly if `0 ≤ k < n` and the ring fits between
the rings `k-1` and `k+1`. -/
theorem C13_replace_ring_ok_iff (s : RSys K) (hs : GoodGeometry s) (index : PyVal K) (k : ℤ)
    (hk : IsIndex index k) (ring : RingObj K) :
    (replaceRing index ⟨s, ring⟩).1 = .ok () ↔
      0 ≤ k ∧ k < s.rings.length ∧ Fits s.rings k.toNat (k.toNat + 1) ring := by
  unfold replaceRing
  simp only [Meth.get_bind, number_index hk.1]
  by_cases h : 0 ≤ k ∧ k < s.rings.length
  · have := preventOverlap_ok_iff hk (s := s) ring true (by simp [h])
    simp only [if_true] at this
    rw [if_pos (by omega)]
    have e : (0 ≤ k ∧ k < s.rings.length ∧ Fits s.rings k.toNat (k.toNat + 1) ring) ↔
        (0 ≤ k ∧ k ≤ s.rings.length ∧ Fits s.rings k.toNat (k.toNat + 1) ring) :=
      ⟨fun ⟨h1, h2, h3⟩ => ⟨h1, h2.le, h3⟩, fun ⟨h1, _, h3⟩ => ⟨h1, h.2, h3⟩⟩
    rw [e, ← this]
    cases h' : preventOverlap s index ring true with
    | error e => simp
    | ok u => simp [Meth.bind_apply, overrideCallersRing_good hs]
  · rw [if_neg (by omega)]
    simp only [Meth.lift_error_bind, reduceCtorEq, false_iff]
    rintro ⟨h1, h2, _⟩
    exact h ⟨h1, h2⟩

/-- **C13** When `replace_ring(k, ring)` succeeds only position `k` changes. -/
theorem C13_replace_ring_effect (s : RSys K) (hs : GoodGeometry s) (index : PyVal K) (k : ℤ)
    (hk : IsIndex index k) (ring : RingObj K) (h : (replaceRing index ⟨s, ring⟩).1 = .ok ()) :
    (replaceRing index ⟨s, ring⟩).2 =
      ⟨{ s with rings := s.rings.take k.toNat ++ adopted s ring :: s.rings.drop (k.toNat + 1) },
        adopted s ring⟩ := by
  obtain ⟨h1, h2, h3⟩ := (C13_replace_ring_ok_iff s hs index k hk ring).1 h
  have hassign : ∀ l : List (RingObj K), ∀ x, npAssign l index x = l.set k.toNat x := by
    intro l x
    obtain ⟨hk, hb⟩ := hk
    cases hk <;> simp_all [npAssign, PyVal.toInt]
  have hp := (preventOverlap_ok_iff hk (s := s) ring true (by simp [h2])).2
    ⟨h1, h2.le, by simpa using h3⟩
  unfold replaceRing
  simp only [Meth.get_bind, number_index hk.1]
  rw [if_pos (by omega), hp]
  simp only [Meth.bind_apply, Meth.lift_apply, overrideCallersRing_good hs, Meth.modify_apply,
    hassign]
  rw [List.set_eq_take_append_cons_drop, if_pos (by omega)]

/-- **C13** When `replace_ring` raises it raises `ValueError`, and nothing has changed. -/
theorem C13_replace_ring_error (s : RSys K) (hs : GoodGeometry s) (index : PyVal K) (k : ℤ)
    (hk : IsIndex index k) (ring : RingObj K) (e : Err)
    (h : (replaceRing index ⟨s, ring⟩).1 = .error e) :
    e = .valueError ∧ (replaceRing index ⟨s, ring⟩).2 = ⟨s, ring⟩ := by
  unfold replaceRing at *
  simp only [Meth.get_bind, number_index hk.1] at *
  by_cases hc : 0 ≤ k ∧ k < s.rings.length
  · rw [if_pos (by omega)] at *
    simp only [Meth.lift_ok_bind] at *
    cases h' : preventOverlap s index ring true with
    | error e' =>
      have := preventOverlap_error hk ring true (by simp [hc]) e' h'
      rw [h'] at h
      simp only [Meth.lift_error_bind, Except.error.injEq] at h ⊢
      exact ⟨by rw [← h, this], trivial⟩
    | ok u => rw [h'] at h; simp [Meth.bind_apply, overrideCallersRing_good hs] at h
  · rw [if_neg (by omega)] at *
    simp only [Meth.lift_error_bind, Except.error.injEq] at h ⊢
    exact ⟨h.symm, trivial⟩

example : ((replaceRing (.npInt .w64 0) ⟨⟨.fin 1, .fin 10, .fin 20,
      [⟨.fin 1, .fin 2, .fin 0, .fin 10, .fin 20⟩, ⟨.fin 3, .fin 4, .fin 0, .fin 10, .fin 20⟩]⟩,
      ⟨.fin 2, .fin 3, .fin (1/2), .fin 0, .fin 0⟩⟩ :
      Except Err Unit × SysAndRing ℚ).2.sys.rings.map (·.inner)) = [.fin 2, .fin 3] := by
  decide +kernel

/-! ## C69: boolean indices

`validate.number(True, check_integer=True)` accepts `True` as the integer 1, but numpy treats
it as a mask. -/

/-- **C69 is false**: `replace_ring(True, ring)` on a system of two rings, where the ring fits
at position 1, puts the ring at *both* positions; the rings of the system then overlap. -/
theorem C69_bool_index_false : ∃ (s : RSys ℚ) (r : RingObj ℚ),
    (replaceRing (.bool true) ⟨s, r⟩).1 = .ok () ∧ s.rings.length = 2 ∧
    (replaceRing (.bool true) ⟨s, r⟩).2.sys.rings = [adopted s r, adopted s r] ∧
    (replaceRing (.int 1) ⟨s, r⟩).2.sys.rings ≠ (replaceRing (.bool true) ⟨s, r⟩).2.sys.rings :=
  ⟨⟨.fin 1, .fin 10, .fin 20, [⟨.fin 1, .fin 2, .fin 0, .fin 10, .fin 20⟩,
      ⟨.fin 3, .fin 4, .fin 0, .fin 10, .fin 20⟩]⟩, ⟨.fin 2, .fin 3, .fin (1/2), .fin 0, .fin 0⟩,
    by decide +kernel, by decide +kernel, by decide +kernel, by decide +kernel⟩

/-- **C69** (general) whenever `replace_ring(True, ring)` succeeds, every ring of the system has
been replaced; `replace_ring(False, ring)` replaces none. -/
theorem C69_bool_index_effect (s : RSys K) (hs : GoodGeometry s) (b : Bool) (ring : RingObj K)
    (h : (replaceRing (.bool b) ⟨s, ring⟩).1 = .ok ()) :
    (replaceRing (.bool b) ⟨s, ring⟩).2.sys.rings =
      if b then List.replicate s.rings.length (adopted s ring) else s.rings := by
  unfold replaceRing at *
  simp only [Meth.get_bind] at *
  cases h1 : number (K := K) (.bool b) (.bool true) (.int 0) (.int ((s.rings.length : ℤ) - 1)) with
  | error e => rw [h1] at h; simp at h
  | ok v =>
    rw [h1] at h
    simp only [Meth.lift_ok_bind] at *
    cases h2 : preventOverlap s (.bool b) ring true with
    | error e => rw [h2] at h; simp at h
    | ok u =>
      cases b <;> simp [Meth.bind_apply, overrideCallersRing_good hs, npAssign, List.map_const']

/-- **C69 (partial)** what holds of the property: `add_ring(True, ring)` raises and leaves the system
alone, or does what `add_ring(1, ring)` does (and `False` is 0); `remove_ring(True)` and
`remove_ring(False)` always raise and leave the system alone.  Missing: `replace_ring`, of which the
property is false (`C69_bool_index_false`). -/
theorem C69_add_remove_partial (s : RSys K) (b : Bool) (ring : RingObj K) :
    ((∃ e, (addRing (.bool b) ⟨s, ring⟩).1 = .error e ∧ (addRing (.bool b) ⟨s, ring⟩).2.sys = s) ∨
      addRing (.bool b) ⟨s, ring⟩ = addRing (.int (if b then 1 else 0)) ⟨s, ring⟩) ∧
    ∃ e, removeRing (.bool b) s = (.error e, s) := by
  constructor
  · cases h : preventOverlap s (.bool b) ring with
    | error e =>
      refine Or.inl ⟨e, ?_, ?_⟩ <;> unfold addRing <;> simp [Meth.get_bind, h]
    | ok u =>
      right
      have hi : (PyVal.bool b : PyVal K).toInt = (PyVal.int (if b then 1 else 0) : PyVal K).toInt := by
        cases b <;> rfl
      have h' : preventOverlap s (.int (if b then 1 else 0)) ring = .ok u := by
        obtain ⟨z, hz⟩ : ∃ z : ℤ, z = if b then 1 else 0 := ⟨_, rfl⟩
        rw [← hz] at hi ⊢
        have n1 := number_index (K := K) (index := .bool b) (k := z)
          (by rw [hz]; cases b <;> constructor) 0 s.rings.length
        have n2 := number_index (K := K) (index := .int z) (.int z) 0 s.rings.length
        by_cases hc : (0 : ℤ) ≤ s.rings.length ∧ 0 ≤ z ∧ z ≤ s.rings.length
        · rw [if_pos hc] at n1 n2
          unfold preventOverlap at h ⊢
          rw [n1, hi] at h
          rw [n2]
          cases hl : lowerNeighbour s.rings (PyVal.int z : PyVal K).toInt with
          | error e => rw [hl] at h; cases h
          | ok lo =>
            rw [hl] at h
            change (if _ then _ else _) = _ at h
            change (if _ then _ else _) = _
            split at h
            · cases h
            · rename_i hlo
              rw [if_neg hlo]
              unfold upperNeighbour at h ⊢
              by_cases he : (PyVal.int z : PyVal K).toInt = s.rings.length
              · simp only [Bool.false_eq_true, if_false, if_pos he] at h ⊢
                exact h
              · simp only [Bool.false_eq_true, if_false, if_neg he] at h
                cases h
        · rw [if_neg hc] at n1
          unfold preventOverlap at h
          rw [n1] at h
          cases h
      unfold addRing
      simp only [Meth.get_bind, h, h', Meth.lift_ok_bind, hi]
  · unfold removeRing
    simp only [Meth.get_bind]
    cases h1 : number (K := K) (.bool b) (.bool true) (.int 0) (.int ((s.rings.length : ℤ) - 1)) with
    | error e => exact ⟨e, by simp⟩
    | ok v => exact ⟨.valueError, by simp [Meth.lift_ok_bind, npDelete, PyVal.isBool]⟩

example : ((addRing (.bool true) ⟨⟨.fin 1, .fin 10, .fin 20, [⟨.fin 1, .fin 2, .fin 0, .fin 10, .fin 20⟩]⟩,
      ⟨.fin 2, .fin 3, .fin (1/2), .fin 0, .fin 0⟩⟩ :
      Except Err Unit × SysAndRing ℚ).2.sys.rings.map (·.inner)) = [.fin 1, .fin 2] := by
  decide +kernel

/-! ## C20 -/

/-- The limits within which a system of disk radius `d` centred on `(x, y)` is shown with the
margin of two stellar radii. -/
def Spec.limits (x y d : K) : (XF K × XF K) × (XF K × XF K) :=
  ((.fin (x - d - 2), .fin (x + d + 2)), (.fin (y - d - 2), .fin (y + d + 2)))

/-- **C20 (partial)** The limits are right exactly if the two shifts are equal; the x limits and
the lower y limit are always right.  Missing for the full claim: the upper y limit for different
shifts, where it is false (`C20_false`). -/
theorem C20_plot_limits_partial (s : RSys K) (r : RingObj K) (d x y : K)
    (hr : s.rings.getLast? = some r) (hd : r.outer = .fin d) :
    ∃ l, plotLimits s (.fin x) (.fin y) = .ok l ∧ l.1 = (limits x y d).1 ∧
      l.2.1 = (limits x y d).2.1 ∧ (l = limits x y d ↔ x = y) := by
  refine ⟨((.fin (x - d - 2), .fin (x + d + 2)), (.fin (y - d - 2), .fin (x + d + 2))), ?_, rfl, rfl, ?_⟩
  · simp [plotLimits, hr, hd, XF.sub, XF.add, XF.neg, sub_eq_add_neg]
  · simp [limits]

/-- **C20 is false**: a ring of outer radius 1 shifted to y = 10 is cut off completely: the upper
y limit (3) is even below the lower one (7). -/
theorem C20_false : ∃ (s : RSys ℚ) (l : (XF ℚ × XF ℚ) × (XF ℚ × XF ℚ)),
    plotLimits s (.fin 0) (.fin 10) = .ok l ∧ XF.lt l.2.2 l.2.1 = true :=
  ⟨⟨.fin 0, .fin 0, .fin 0, [⟨.fin (1/2), .fin 1, .fin 0, .fin 0, .fin 0⟩]⟩, _, rfl, by decide +kernel⟩

end Beyonce
