import Verif.Props.Messages

/-!
# C107: a ring that is rejected because it overlaps is shown to overlap
-/

namespace Beyonce

section
set_option linter.unusedSectionVars false
variable {K : Type} [Field K] [LinearOrder K] [IsStrictOrderedRing K] [FloorRing K]
open Spec

/-- **C107** Without its message the check is the check of the model of the ring system. -/
theorem C107_same (s : RSys K) (index : PyVal K) (ring : RingObj K) (replace : Bool) :
    forget (Said.preventOverlap s index ring replace) = preventOverlap s index ring replace := by
  have hl : ∀ i, forget (Said.lowerNeighbour s.rings i) = lowerNeighbour s.rings i := by
    intro i
    unfold Said.lowerNeighbour lowerNeighbour
    split
    · rfl
    · cases s.rings[(i - 1).toNat]? <;> rfl
  have hu : ∀ i b, forget (Said.upperNeighbour s.rings i b) = upperNeighbour s.rings i b := by
    intro i b
    unfold Said.upperNeighbour upperNeighbour
    split
    · rfl
    · split
      · rfl
      · cases s.rings[i.toNat]? <;> rfl
  unfold Said.preventOverlap preventOverlap
  simp only [forget_bind, C106_same_number, forget_ite, hl, hu]
  rfl

/-- The message says that the inner radius of the new ring is less than the outer radius `q` of the ring
before, or that its outer radius is greater than the inner radius of the ring after; `p < q` are the two radii
that are shown, the smaller first. -/
inductive Spec.Overlap (before after : Option (RingObj K)) (ring : RingObj K) : XF K → XF K → String → Prop
  | low (r : RingObj K) : before = some r → Less ring.inner r.outer →
      Overlap before after ring ring.inner r.outer ("Ring must have an inner radius (" ++ fixed 2 ring.inner ++
        ") > the preceding ring's outer radius (" ++ fixed 2 r.outer ++ ")")
  | high (r : RingObj K) : after = some r → Less r.inner ring.outer →
      Overlap before after ring r.inner ring.outer ("Ring must have an outer radius (" ++ fixed 2 ring.outer ++
        ") less than the succeeding ring's inner radius (" ++ fixed 2 r.inner ++ ")")

/-- **C107** For an index in range, a `ValueError` of the check names the radius of the new ring and the
neighbour's that it collides with.  (A new ring comes before the ring that has the index now; with
`replace` it takes its place.) -/
theorem C107_message (s : RSys K) (index : PyVal K) (n : ℕ) (ring : RingObj K) (replace : Bool) (m : String)
    (hn : IsInteger index n) (hle : n ≤ s.rings.length)
    (h : Said.preventOverlap s index ring replace = .error (.valueError, m)) :
    ∃ p q, Spec.Overlap (if n = 0 then none else s.rings[n - 1]?) (s.rings[if replace then n + 1 else n]?) ring p q m := by
  have hnum : Said.number index "index" (.bool true) (.int 0) (.int s.rings.length) = .ok index := by
    have hf := C106_same_number index (.bool true) (.int 0) (.int s.rings.length) (.bool false) "index"
    rw [(C01_number_ok_iff true false index index (.int 0) (.int s.rings.length)).2 ⟨rfl, _, _, _,
      Or.inl ⟨n, hn, rfl⟩, Or.inl ⟨0, .int 0, rfl⟩, Or.inl ⟨_, .int _, rfl⟩, ?_, ?_⟩] at hf
    · cases hs : Said.number index "index" (.bool true) (.int 0) (.int s.rings.length) with
      | ok w => rw [hs] at hf; cases hf; rfl
      | error e => rw [hs] at hf; cases hf
    · rw [less_iff]; simp
    · rw [not_violates_iff]
      simp
      omega
  have hi : index.toInt = n := by cases hn <;> simp_all [PyVal.toInt]
  unfold Said.preventOverlap at h
  rw [hnum] at h
  simp only [bind, Except.bind, hi] at h
  obtain ⟨L, hL, hlow⟩ : ∃ L, Said.lowerNeighbour s.rings (n : ℤ) = .ok L ∧ (L = .ninf ∨
      ∃ r, (if n = 0 then none else s.rings[n - 1]?) = some r ∧ L = r.outer) := by
    unfold Said.lowerNeighbour
    rcases Nat.eq_zero_or_pos n with rfl | hpos
    · exact ⟨_, rfl, Or.inl rfl⟩
    · rw [if_neg (by omega), if_neg (by omega), show ((n : ℤ) - 1).toNat = n - 1 by omega,
        List.getElem?_eq_getElem (by omega)]
      exact ⟨_, rfl, Or.inr ⟨_, rfl, rfl⟩⟩
  rw [hL] at h
  simp only at h
  have below : ∀ x : XF K, XF.lt x .ninf = false := by intro x; cases x <;> rfl
  have above : ∀ x : XF K, XF.lt .pinf x = false := by intro x; cases x <;> rfl
  split at h
  · rename_i hlt
    rcases hlow with rfl | ⟨r, hr, rfl⟩
    · rw [below] at hlt; cases hlt
    · cases h
      exact ⟨_, _, .low r hr ((less_iff _ _).2 hlt)⟩
  · have hj : (if replace = true then (n : ℤ) + 1 else n) = ((if replace then n + 1 else n : ℕ) : ℤ) := by
      cases replace <;> simp
    rw [hj] at h
    generalize (if replace then n + 1 else n) = j at h ⊢
    cases hup : Said.upperNeighbour s.rings (j : ℤ) (index.isBool && !replace) with
    | error e =>
      exfalso
      rw [hup] at h
      cases h
      unfold Said.upperNeighbour at hup
      split at hup
      · cases hup
      · split at hup
        · cases hup
        · cases hr : s.rings[(j : ℤ).toNat]? with
          | none => rw [hr] at hup; cases hup
          | some r => rw [hr] at hup; cases hup
    | ok upper =>
      rw [hup] at h
      unfold Said.upperNeighbour at hup
      simp only at h
      split at h
      · rename_i hlt
        cases h
        split at hup
        · cases hup
          rw [above] at hlt
          cases hlt
        · split at hup
          · cases hup
          · rw [Int.toNat_natCast] at hup
            cases hr : s.rings[j]? with
            | none => rw [hr] at hup; cases hup
            | some r =>
              rw [hr] at hup
              cases hup
              exact ⟨_, _, .high r rfl ((less_iff _ _).2 hlt)⟩
      · cases h

/-- **C107 (partial)** The two numbers that are shown never contradict the overlap, and they show it if the
rings overlap by more than a hundredth.  Missing for the full claim: smaller overlaps, for which both numbers
may be the same (`C107_false_shows`). -/
theorem C107_shows_partial (s : RSys K) (index : PyVal K) (n : ℕ) (ring : RingObj K) (replace : Bool) (m : String)
    (hn : IsInteger index n) (hle : n ≤ s.rings.length)
    (h : Said.preventOverlap s index ring replace = .error (.valueError, m)) :
    ∃ p q, Spec.Overlap (if n = 0 then none else s.rings[n - 1]?) (s.rings[if replace then n + 1 else n]?)
        ring p q m ∧
      ∀ x y, p = .fin x → q = .fin y →
        (readDecimal (fixed 2 p) : K) ≤ readDecimal (fixed 2 q) ∧
        (1 / 100 < y - x → (readDecimal (fixed 2 p) : K) < readDecimal (fixed 2 q)) := by
  obtain ⟨p, q, ho⟩ := C107_message s index n ring replace m hn hle h
  refine ⟨p, q, ho, ?_⟩
  rintro x y rfl rfl
  have hlt : x < y := by
    have hl : Less (.fin x) (.fin y) := by
      generalize hp : XF.fin x = p at ho ⊢
      generalize hq : XF.fin y = q at ho ⊢
      cases ho <;> assumption
    rw [less_iff] at hl
    simpa using hl
  refine ⟨C100_monotone 2 x y hlt.le, fun hg => ?_⟩
  have h1 := abs_le.1 (C100_near 2 x)
  have h2 := abs_le.1 (C100_near 2 y)
  norm_num at h1 h2
  linarith [h1.2, h2.1]

/-- A system with one ring from 1 to 2. -/
def oneRing : RSys ℚ := ⟨.fin 1, .fin 0, .fin 0, [⟨.fin 1, .fin 2, .fin 1, .fin 0, .fin 0⟩]⟩

/-- **C107 is false** of the code: a ring that begins at 1.999 is said to begin at 2.00, just where the ring
before ends. -/
theorem C107_false_shows : Said.preventOverlap oneRing (.int 1)
      ⟨.fin (1999 / 1000), .fin 3, .fin 1, .fin 0, .fin 0⟩
    = .error (.valueError,
      "Ring must have an inner radius (2.00) > the preceding ring's outer radius (2.00)") := by
  decide +kernel

/-- **C107 is false** of the code in another way: the message asks for an inner radius greater than the outer
radius of the ring before, but an equal one is accepted. -/
theorem C107_false_greater (s : RSys K) (r ring : RingObj K) (hs : s.rings = [r]) (x : K)
    (hr : r.outer = .fin x) (hi : ring.inner = .fin x) : Said.preventOverlap s (.int 1) ring = .ok () := by
  have hnum : Said.number (.int 1 : PyVal K) "index" (.bool true) (.int 0) (.int s.rings.length) = .ok (.int 1) := by
    rw [hs, show (([r].length : ℕ) : ℤ) = 1 from rfl]
    unfold Said.number
    rw [said_numberType, if_pos ⟨_, Or.inl ⟨1, .int 1, rfl⟩⟩]
    simp only [bind, Except.bind]
    rw [said_numberBounds _ _ _ _ false (.fin ((0 : ℤ) : K)) (.fin ((1 : ℤ) : K)) (Or.inl ⟨0, .int 0, rfl⟩)
      (Or.inl ⟨1, .int 1, rfl⟩) (by rw [less_iff]; simp)]
    simp
  unfold Said.preventOverlap
  rw [hnum]
  simp [bind, Except.bind, PyVal.toInt, Said.lowerNeighbour, Said.upperNeighbour, hs, hr, hi]

/-- Non-vacuity of `C107_message`: an overlap that is shown. -/
example : Said.preventOverlap oneRing (.int 0) ⟨.fin (1 / 2), .fin (3 / 2), .fin 1, .fin 0, .fin 0⟩
    = .error (.valueError,
      "Ring must have an outer radius (1.50) less than the succeeding ring's inner radius (1.00)") := by
  decide +kernel

end
end Beyonce
