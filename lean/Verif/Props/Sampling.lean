import Verif.BuildGrid
import Verif.CubeLemmas
import Verif.Props.GridProperty
import Verif.Props.GridParameters
import Verif.Props.Viewer
import Verif.Props.Geometry

/-!
# C57, C58, C59: sampling and interpolating the scale factors of a cell
-/

set_option linter.unusedSectionVars false

namespace Beyonce
open Spec

section
variable {K : Type} [Field K] [LinearOrder K] [IsStrictOrderedRing K] [RealFns K]

/-! ## C58: the loops end -/

theorem tooFar_fin (m : K) (n : ℕ) : Shallot.tooFar (.fin m) n = true ↔ 100 * m < n := by
  simp [Shallot.tooFar, XF.mul]

/-- All scale factors after `n` rounds of `_extend_grid_horizontally`. -/
def Spec.samplesH (c : Shallot.Cell K) : ℕ → List (XF K × XF K)
  | 0 => []
  | n + 1 => Shallot.horizontalScales c (n + 1) ++ samplesH c n

/-- The radius at the outermost scale factor of round `n` over the smallest radius so far. -/
def Spec.outermostH (c : Shallot.Cell K) (n : ℕ) : XF K :=
  ((Shallot.radii c (Shallot.horizontalScales c n)).headD .nan).div
    (Shallot.radii c (samplesH c n) |> nanminOf)

theorem horizontalLoop_step (c : Shallot.Cell K) (n : ℕ) :
    Shallot.horizontalLoop c (n + 1) ((samplesH c n).map Prod.snd) (Shallot.radii c (samplesH c n)) =
      if XF.lt (outermostH c (n + 1)) c.maxRf then
        if Shallot.tooFar c.maxX (n + 2) then some (.error .attributeError)
        else Shallot.horizontalLoop c (n + 2) ((samplesH c (n + 1)).map Prod.snd) (Shallot.radii c (samplesH c (n + 1)))
      else if Shallot.tooFar c.maxX (n + 1) then some (.error .attributeError)
      else some (.ok (((samplesH c (n + 1)).map Prod.snd), (Shallot.radii c (samplesH c (n + 1))))) := by
  rw [Shallot.horizontalLoop]
  have hf : (Shallot.horizontalScales c (n + 1)).map Prod.snd ++ (samplesH c n).map Prod.snd = ((samplesH c (n + 1)).map Prod.snd) := by
    simp [samplesH]
  have hr : Shallot.radii c (Shallot.horizontalScales c (n + 1)) ++ Shallot.radii c (samplesH c n) = (Shallot.radii c (samplesH c (n + 1))) := by
    simp [samplesH, Shallot.radii]
  rw [hf, hr]
  rfl

theorem horizontalLoop_ends (c : Shallot.Cell K) (m : K) (hm : c.maxX = .fin m) (d : ℕ) : ∀ n : ℕ,
    100 * m < n + 1 + d →
    ∃ k, n < k ∧ (∀ j, n < j → j < k → XF.lt (outermostH c j) c.maxRf = true ∧ ((j + 1 : ℕ) : K) ≤ 100 * m) ∧
      ((Shallot.horizontalLoop c (n + 1) ((samplesH c n).map Prod.snd) (Shallot.radii c (samplesH c n)) = some (.ok ((samplesH c k).map Prod.snd, Shallot.radii c (samplesH c k))) ∧
        XF.lt (outermostH c k) c.maxRf = false ∧ (k : K) ≤ 100 * m) ∨
       (Shallot.horizontalLoop c (n + 1) ((samplesH c n).map Prod.snd) (Shallot.radii c (samplesH c n)) = some (.error .attributeError) ∧
        100 * m < k + if XF.lt (outermostH c k) c.maxRf then 1 else 0)) := by
  induction d with
  | zero =>
    intro n hn
    refine ⟨n + 1, by omega, by intro j h1 h2; omega, ?_⟩
    rw [horizontalLoop_step, hm]
    right
    have h1 : Shallot.tooFar (.fin m) (n + 1) = true := by rw [tooFar_fin]; push_cast at *; linarith
    have h2 : Shallot.tooFar (.fin m) (n + 2) = true := by rw [tooFar_fin]; push_cast at *; linarith
    rw [h1, h2]
    push_cast at *
    by_cases h : XF.lt (outermostH c (n + 1)) c.maxRf = true
    · rw [h]; exact ⟨rfl, by simp; linarith⟩
    · rw [Bool.not_eq_true] at h; rw [h]; exact ⟨rfl, by simp; linarith⟩
  | succ d ih =>
    intro n hn
    rw [horizontalLoop_step, hm]
    by_cases h : XF.lt (outermostH c (n + 1)) c.maxRf = true
    · rw [if_pos h]
      by_cases h2 : Shallot.tooFar (.fin m) (n + 2) = true
      · rw [if_pos h2]
        refine ⟨n + 1, by omega, by intro j h1 h2; omega, Or.inr ⟨rfl, ?_⟩⟩
        rw [if_pos h]
        rw [tooFar_fin] at h2
        push_cast at *
        linarith
      · rw [if_neg h2]
        obtain ⟨k, hk, hall, hout⟩ := ih (n + 1) (by push_cast at *; linarith)
        refine ⟨k, by omega, ?_, hout⟩
        intro j h3 h4
        rcases Nat.lt_or_ge (n + 1) j with h5 | h5
        · exact hall j h5 h4
        · obtain rfl : j = n + 1 := by omega
          rw [tooFar_fin, not_lt] at h2
          exact ⟨h, h2⟩
    · rw [if_neg h]
      refine ⟨n + 1, by omega, by intro j h1 h2; omega, ?_⟩
      by_cases h1 : Shallot.tooFar (.fin m) (n + 1) = true
      · rw [if_pos h1, if_neg h]
        rw [tooFar_fin] at h1
        exact Or.inr ⟨rfl, by simpa using h1⟩
      · rw [if_neg h1]
        rw [tooFar_fin, not_lt] at h1
        exact Or.inl ⟨rfl, by simpa using h, h1⟩

/-- **C58** For every cell with a finite largest `dx` the horizontal loop ends in a round `k` that is the
first or at most `100 max`.  All rounds before it had their outermost disk radius within `max_rf`
times the smallest.  It returns the samples of all rounds if the outermost radius of round `k` is
not below `max_rf` times the smallest (that is, at least that or NaN) and `k ≤ 100 max`; otherwise
it raises `AttributeError`, and the limit `100 max` has been passed. -/
theorem C58_horizontal [Archimedean K] (c : Shallot.Cell K) (m : K) (hm : c.maxX = .fin m) :
    ∃ k : ℕ, 0 < k ∧ (k = 1 ∨ (k : K) ≤ 100 * m) ∧
      (∀ j : ℕ, 0 < j → j < k → Less (outermostH c j) c.maxRf) ∧
      ((Shallot.horizontalLoop c 1 [] [] = some (.ok ((samplesH c k).map Prod.snd, Shallot.radii c (samplesH c k))) ∧
        (outermostH c k = .nan ∨ c.maxRf = .nan ∨ LessEq c.maxRf (outermostH c k)) ∧
        (k : K) ≤ 100 * m) ∨
       (Shallot.horizontalLoop c 1 [] [] = some (.error .attributeError) ∧
        100 * m < k + 1 ∧ (Less (outermostH c k) c.maxRf ∨ 100 * m < k))) := by
  obtain ⟨d, hd⟩ := exists_nat_gt (100 * m)
  obtain ⟨k, hk, hall, hout⟩ := horizontalLoop_ends c m hm d 0 (by push_cast; linarith)
  refine ⟨k, hk, ?_, ?_, ?_⟩
  · rcases Nat.lt_or_ge 1 k with h | h
    · right
      have := (hall (k - 1) (by omega) (by omega)).2
      rwa [show k - 1 + 1 = k by omega] at this
    · left; omega
  · intro j h1 h2
    rw [less_iff]
    exact (hall j h1 h2).1
  · rcases hout with ⟨h1, h2, h3⟩ | ⟨h1, h2⟩
    · refine Or.inl ⟨by simpa [samplesH, Shallot.radii] using h1, ?_, h3⟩
      by_cases e1 : outermostH c k = .nan
      · exact Or.inl e1
      · by_cases e2 : c.maxRf = .nan
        · exact Or.inr (Or.inl e2)
        · right; right
          rw [lessEq_iff]
          rw [XF.lt_eq_not_le e1 e2] at h2
          simpa using h2
    · refine Or.inr ⟨by simpa [samplesH, Shallot.radii] using h1, ?_, ?_⟩
      · by_cases h : XF.lt (outermostH c k) c.maxRf = true
        · rwa [if_pos h] at h2
        · rw [if_neg h, add_zero] at h2; linarith
      · by_cases h : XF.lt (outermostH c k) c.maxRf = true
        · left; rw [less_iff]; exact h
        · right; rw [if_neg h, add_zero] at h2; exact h2

/-- All scale factors after `n` rounds of `_extend_grid_vertically`. -/
def Spec.samplesV (c : Shallot.Cell K) : ℕ → List (XF K × XF K)
  | 0 => []
  | n + 1 => samplesV c n ++ Shallot.verticalScales c (n + 1)

/-- The radius at the outermost scale factor of round `n` over the smallest radius so far. -/
def Spec.outermostV (c : Shallot.Cell K) (s0 : List (XF K × XF K)) (n : ℕ) : XF K :=
  ((Shallot.radii c (Shallot.verticalScales c n)).getLastD .nan).div
    (Shallot.radii c (s0 ++ samplesV c n) |> nanminOf)

theorem verticalLoop_step (c : Shallot.Cell K) (s0 : List (XF K × XF K)) (n : ℕ) :
    Shallot.verticalLoop c (n + 1) ((s0 ++ samplesV c n).map Prod.snd) (Shallot.radii c (s0 ++ samplesV c n)) =
      if XF.lt (outermostV c s0 (n + 1)) c.maxRf then
        if Shallot.tooFar c.maxY (n + 2) then some (.error .attributeError)
        else Shallot.verticalLoop c (n + 2) ((s0 ++ samplesV c (n + 1)).map Prod.snd) (Shallot.radii c (s0 ++ samplesV c (n + 1)))
      else if Shallot.tooFar c.maxY (n + 1) then some (.error .attributeError)
      else some (.ok (((s0 ++ samplesV c (n + 1)).map Prod.snd), (Shallot.radii c (s0 ++ samplesV c (n + 1))))) := by
  rw [Shallot.verticalLoop]
  have hf : (s0 ++ samplesV c n).map Prod.snd ++ (Shallot.verticalScales c (n + 1)).map Prod.snd = ((s0 ++ samplesV c (n + 1)).map Prod.snd) := by
    simp [samplesV]
  have hr : Shallot.radii c (s0 ++ samplesV c n) ++ Shallot.radii c (Shallot.verticalScales c (n + 1)) = (Shallot.radii c (s0 ++ samplesV c (n + 1))) := by
    simp [samplesV, Shallot.radii]
  rw [hf, hr]
  rfl

theorem verticalLoop_ends (c : Shallot.Cell K) (s0 : List (XF K × XF K)) (m : K) (hm : c.maxY = .fin m) (d : ℕ) : ∀ n : ℕ,
    100 * m < n + 1 + d →
    ∃ k, n < k ∧ (∀ j, n < j → j < k → XF.lt (outermostV c s0 j) c.maxRf = true ∧ ((j + 1 : ℕ) : K) ≤ 100 * m) ∧
      ((Shallot.verticalLoop c (n + 1) ((s0 ++ samplesV c n).map Prod.snd) (Shallot.radii c (s0 ++ samplesV c n)) = some (.ok ((s0 ++ samplesV c k).map Prod.snd, Shallot.radii c (s0 ++ samplesV c k))) ∧
        XF.lt (outermostV c s0 k) c.maxRf = false ∧ (k : K) ≤ 100 * m) ∨
       (Shallot.verticalLoop c (n + 1) ((s0 ++ samplesV c n).map Prod.snd) (Shallot.radii c (s0 ++ samplesV c n)) = some (.error .attributeError) ∧
        100 * m < k + if XF.lt (outermostV c s0 k) c.maxRf then 1 else 0)) := by
  induction d with
  | zero =>
    intro n hn
    refine ⟨n + 1, by omega, by intro j h1 h2; omega, ?_⟩
    rw [verticalLoop_step, hm]
    right
    have h1 : Shallot.tooFar (.fin m) (n + 1) = true := by rw [tooFar_fin]; push_cast at *; linarith
    have h2 : Shallot.tooFar (.fin m) (n + 2) = true := by rw [tooFar_fin]; push_cast at *; linarith
    rw [h1, h2]
    push_cast at *
    by_cases h : XF.lt (outermostV c s0 (n + 1)) c.maxRf = true
    · rw [h]; exact ⟨rfl, by simp; linarith⟩
    · rw [Bool.not_eq_true] at h; rw [h]; exact ⟨rfl, by simp; linarith⟩
  | succ d ih =>
    intro n hn
    rw [verticalLoop_step, hm]
    by_cases h : XF.lt (outermostV c s0 (n + 1)) c.maxRf = true
    · rw [if_pos h]
      by_cases h2 : Shallot.tooFar (.fin m) (n + 2) = true
      · rw [if_pos h2]
        refine ⟨n + 1, by omega, by intro j h1 h2; omega, Or.inr ⟨rfl, ?_⟩⟩
        rw [if_pos h]
        rw [tooFar_fin] at h2
        push_cast at *
        linarith
      · rw [if_neg h2]
        obtain ⟨k, hk, hall, hout⟩ := ih (n + 1) (by push_cast at *; linarith)
        refine ⟨k, by omega, ?_, hout⟩
        intro j h3 h4
        rcases Nat.lt_or_ge (n + 1) j with h5 | h5
        · exact hall j h5 h4
        · obtain rfl : j = n + 1 := by omega
          rw [tooFar_fin, not_lt] at h2
          exact ⟨h, h2⟩
    · rw [if_neg h]
      refine ⟨n + 1, by omega, by intro j h1 h2; omega, ?_⟩
      by_cases h1 : Shallot.tooFar (.fin m) (n + 1) = true
      · rw [if_pos h1, if_neg h]
        rw [tooFar_fin] at h1
        exact Or.inr ⟨rfl, by simpa using h1⟩
      · rw [if_neg h1]
        rw [tooFar_fin, not_lt] at h1
        exact Or.inl ⟨rfl, by simpa using h, h1⟩

/-- **C58** For every cell with a finite largest `dy` the vertical loop ends in a round `k` that is the
first or at most `100 max`.  All rounds before it had their outermost disk radius within `max_rf`
times the smallest.  It returns what it was given and the samples of all rounds if the outermost radius of round `k` is
not below `max_rf` times the smallest (that is, at least that or NaN) and `k ≤ 100 max`; otherwise
it raises `AttributeError`, and the limit `100 max` has been passed. -/
theorem C58_vertical [Archimedean K] (c : Shallot.Cell K) (s0 : List (XF K × XF K)) (m : K) (hm : c.maxY = .fin m) :
    ∃ k : ℕ, 0 < k ∧ (k = 1 ∨ (k : K) ≤ 100 * m) ∧
      (∀ j : ℕ, 0 < j → j < k → Less (outermostV c s0 j) c.maxRf) ∧
      ((Shallot.verticalLoop c 1 (s0.map Prod.snd) (Shallot.radii c s0) = some (.ok ((s0 ++ samplesV c k).map Prod.snd, Shallot.radii c (s0 ++ samplesV c k))) ∧
        (outermostV c s0 k = .nan ∨ c.maxRf = .nan ∨ LessEq c.maxRf (outermostV c s0 k)) ∧
        (k : K) ≤ 100 * m) ∨
       (Shallot.verticalLoop c 1 (s0.map Prod.snd) (Shallot.radii c s0) = some (.error .attributeError) ∧
        100 * m < k + 1 ∧ (Less (outermostV c s0 k) c.maxRf ∨ 100 * m < k))) := by
  obtain ⟨d, hd⟩ := exists_nat_gt (100 * m)
  obtain ⟨k, hk, hall, hout⟩ := verticalLoop_ends c s0 m hm d 0 (by push_cast; linarith)
  refine ⟨k, hk, ?_, ?_, ?_⟩
  · rcases Nat.lt_or_ge 1 k with h | h
    · right
      have := (hall (k - 1) (by omega) (by omega)).2
      rwa [show k - 1 + 1 = k by omega] at this
    · left; omega
  · intro j h1 h2
    rw [less_iff]
    exact (hall j h1 h2).1
  · rcases hout with ⟨h1, h2, h3⟩ | ⟨h1, h2⟩
    · refine Or.inl ⟨by simpa [samplesV, Shallot.radii] using h1, ?_, h3⟩
      by_cases e1 : outermostV c s0 k = .nan
      · exact Or.inl e1
      · by_cases e2 : c.maxRf = .nan
        · exact Or.inr (Or.inl e2)
        · right; right
          rw [lessEq_iff]
          rw [XF.lt_eq_not_le e1 e2] at h2
          simpa using h2
    · refine Or.inr ⟨by simpa [samplesV, Shallot.radii] using h1, ?_, ?_⟩
      · by_cases h : XF.lt (outermostV c s0 k) c.maxRf = true
        · rwa [if_pos h] at h2
        · rw [if_neg h, add_zero] at h2; linarith
      · by_cases h : XF.lt (outermostV c s0 k) c.maxRf = true
        · left; rw [less_iff]; exact h
        · right; rw [if_neg h, add_zero] at h2; exact h2

/-- A disk with an unknown scale factor has no radius. -/
theorem diskParameters_nan (fx fy s R : XF K) (h : fx = .nan ∨ fy = .nan) :
    (Geometry.diskParameters fx fy s R).1 = .nan := by
  have hm : ∀ a : XF K, a.mul .nan = .nan := by intro a; cases a <;> rfl
  have hm' : ∀ a : XF K, XF.mul .nan a = .nan := by intro a; cases a <;> rfl
  have hv : Geometry.vertexAngles fx fy s = (.nan, .nan) := by
    unfold Geometry.vertexAngles
    rcases h with rfl | rfl
    · simp only [hm, hm']
      cases ((s.sq.add (.fin 1)).mul fy.sq).sub (XF.nan : XF K).sq <;> simp [XF.arctan2, hm] <;>
        cases XF.pi.div (.fin (2 : K)) <;> rfl
    · simp only [hm, hm']
      cases ((s.sq.add (.fin 1)).mul (XF.nan : XF K).sq).sub fx.sq <;> simp [XF.arctan2, hm] <;>
        cases XF.pi.div (.fin (2 : K)) <;> rfl
  have hxy : Geometry.xyAt fx fy .nan s R = (.nan, .nan) := by
    unfold Geometry.xyAt
    simp only [XF.cos, XF.sin, hm]
    rfl
  unfold Geometry.diskParameters
  rw [hv]
  simp only [hxy]
  rfl

/-! ## C59: `np.interp` -/

/-- `v` lies between two of the numbers of `l` (both bounds attained). -/
def Spec.Among (l : List (XF K)) (v : XF K) : Prop :=
  ∃ a ∈ l, ∃ b ∈ l, LessEq a v ∧ LessEq v b

theorem bisect_spec (key : XF K) (l : List (XF K)) : ∀ (n lo hi : ℕ), lo ≤ hi → hi ≤ l.length →
    hi - lo ≤ n →
    (lo = 0 ∨ XF.lt key (sampleAt l (lo - 1)) = false ∨
      (XF.le (sampleAt l lo) key = true ∧ lo < hi)) →
    (hi = l.length ∨ XF.le (sampleAt l hi) key = false) →
    bisect key l n lo hi ≤ l.length ∧
      (bisect key l n lo hi = 0 ∨ XF.lt key (sampleAt l (bisect key l n lo hi - 1)) = false) ∧
      (bisect key l n lo hi = l.length ∨ XF.le (sampleAt l (bisect key l n lo hi)) key = false) := by
  intro n
  induction n with
  | zero =>
    intro lo hi h1 h2 h3 h4 h5
    obtain rfl : lo = hi := by omega
    unfold bisect
    refine ⟨h2, ?_, h5⟩
    rcases h4 with h | h | h
    · exact Or.inl h
    · exact Or.inr h
    · omega
  | succ n ih =>
    intro lo hi h1 h2 h3 h4 h5
    unfold bisect
    by_cases hlt : lo < hi
    · rw [if_pos hlt]
      simp only
      have hmid : lo ≤ lo + (hi - lo) / 2 ∧ lo + (hi - lo) / 2 < hi := by omega
      generalize lo + (hi - lo) / 2 = mid at hmid
      by_cases hm : XF.le (sampleAt l mid) key = true
      · rw [if_pos hm]
        refine ih (mid + 1) hi (by omega) h2 (by omega) (Or.inr (Or.inl ?_)) h5
        rw [Nat.add_sub_cancel]
        have : sampleAt l mid ≠ .nan := by intro h; rw [h] at hm; simp at hm
        have hk : key ≠ .nan := by intro h; rw [h] at hm; simp at hm
        rw [XF.lt_eq_not_le hk this, hm]; rfl
      · rw [if_neg hm]
        refine ih lo mid (by omega) (by omega) (by omega) ?_ (Or.inr (by simpa using hm))
        rcases h4 with h | h | h
        · exact Or.inl h
        · exact Or.inr (Or.inl h)
        · refine Or.inr (Or.inr ⟨h.1, ?_⟩)
          rcases Nat.lt_or_ge lo mid with h' | h'
          · exact h'
          · obtain rfl : mid = lo := by omega
            exact absurd h.1 hm
    · rw [if_neg hlt]
      obtain rfl : lo = hi := by omega
      refine ⟨h2, ?_, h5⟩
      rcases h4 with h | h | h
      · exact Or.inl h
      · exact Or.inr h
      · omega

theorem linearSearch_spec (key : XF K) (l : List (XF K)) : ∀ (n i : ℕ), 1 ≤ i → i ≤ l.length →
    l.length - i ≤ n → XF.lt key (sampleAt l (i - 1)) = false →
    1 ≤ linearSearch key l n i ∧ linearSearch key l n i ≤ l.length ∧
      XF.lt key (sampleAt l (linearSearch key l n i - 1)) = false ∧
      (linearSearch key l n i = l.length ∨
        XF.le (sampleAt l (linearSearch key l n i)) key = false) := by
  intro n
  induction n with
  | zero =>
    intro i h1 h2 h3 h4
    unfold linearSearch
    exact ⟨h1, h2, h4, Or.inl (by omega)⟩
  | succ n ih =>
    intro i h1 h2 h3 h4
    unfold linearSearch
    by_cases h : i < l.length ∧ XF.le (sampleAt l i) key = true
    · rw [if_pos h]
      refine ih (i + 1) (by omega) (by omega) (by omega) ?_
      rw [Nat.add_sub_cancel]
      have hm := h.2
      have : sampleAt l i ≠ .nan := by intro h; rw [h] at hm; simp at hm
      have hk : key ≠ .nan := by intro h; rw [h] at hm; simp at hm
      rw [XF.lt_eq_not_le hk this, hm]; rfl
    · rw [if_neg h]
      refine ⟨h1, h2, h4, ?_⟩
      rw [not_and_or] at h
      rcases h with h | h
      · exact Or.inl (by omega)
      · exact Or.inr (by simpa using h)

/-- What the search returns, for any samples: the sample before is not larger than the key, the one
at it is not smaller or equal. -/
theorem search_spec (key : XF K) (l : List (XF K)) (guess : ℕ) (hl : 2 ≤ l.length)
    (hkey : key ≠ .nan) (h0 : XF.lt key (sampleAt l 0) = false) :
    searchInside key l guess ≤ l.length ∧
      (searchInside key l guess = 0 ∨
        XF.lt key (sampleAt l (searchInside key l guess - 1)) = false) ∧
      (searchInside key l guess = l.length ∨
        XF.le (sampleAt l (searchInside key l guess)) key = false) := by
  have hnot : ∀ x, XF.lt key x = true → XF.le x key = false := by
    intro x hx
    have : x ≠ .nan := by intro h; rw [h] at hx; simp at hx
    rw [XF.lt_eq_not_le hkey this] at hx
    simpa using hx
  unfold searchInside
  by_cases h4 : l.length ≤ 4
  · rw [if_pos h4]
    obtain ⟨-, a, b, c⟩ := linearSearch_spec key l l.length 1 le_rfl (by omega) (by omega) h0
    exact ⟨a, Or.inr b, c⟩
  · rw [if_neg h4]
    have hg : 1 ≤ clampGuess l.length guess ∧ clampGuess l.length guess ≤ l.length - 3 := by
      unfold clampGuess
      simp only
      split_ifs <;> omega
    generalize clampGuess l.length guess = g at hg
    unfold guessBounds
    by_cases a1 : XF.lt key (sampleAt l g) = true
    · rw [if_pos a1]
      by_cases a2 : XF.lt key (sampleAt l (g - 1)) = true
      · rw [if_pos a2]
        by_cases a3 : 8 < g ∧ XF.le (sampleAt l (g - 8)) key = true
        · rw [if_pos a3]
          exact bisect_spec key l _ _ _ (by omega) (by omega) (by omega)
            (Or.inr (Or.inr ⟨a3.2, by omega⟩)) (Or.inr (hnot _ a2))
        · rw [if_neg a3]
          exact bisect_spec key l _ _ _ (by omega) (by omega) (by omega) (Or.inl rfl)
            (Or.inr (hnot _ a2))
      · rw [if_neg a2]
        simp only
        exact ⟨by omega, Or.inr (by simpa using a2), Or.inr (hnot _ a1)⟩
    · rw [if_neg a1]
      by_cases a2 : XF.lt key (sampleAt l (g + 1)) = true
      · rw [if_pos a2]
        simp only
        exact ⟨by omega, Or.inr (by simpa using a1), Or.inr (hnot _ a2)⟩
      · rw [if_neg a2]
        by_cases a3 : XF.lt key (sampleAt l (g + 2)) = true
        · rw [if_pos a3]
          simp only
          exact ⟨by omega, Or.inr (by simpa using a2), Or.inr (hnot _ a3)⟩
        · rw [if_neg a3]
          by_cases a4 : g + 8 + 1 < l.length ∧ XF.lt key (sampleAt l (g + 8)) = true
          · rw [if_pos a4]
            exact bisect_spec key l _ _ _ (by omega) (by omega) (by omega)
              (Or.inr (Or.inl (by simpa using a2))) (Or.inr (hnot _ a4.2))
          · rw [if_neg a4]
            exact bisect_spec key l _ _ _ (by omega) (by omega) (by omega)
              (Or.inr (Or.inl (by simpa using a2))) (Or.inl rfl)

/-- NaN or an ordinary number. -/
def Spec.Plain (x : XF K) : Prop := x = .nan ∨ ∃ y, x = .fin y

theorem sampleAt_plain (l : List (XF K)) (h : ∀ x ∈ l, Plain x) (i : ℕ) : Plain (sampleAt l i) := by
  unfold sampleAt
  rcases Nat.lt_or_ge i l.length with hi | hi
  · rw [List.getD_eq_getElem?_getD, List.getElem?_eq_getElem hi]; exact h _ (List.getElem_mem hi)
  · rw [List.getD_eq_getElem?_getD, List.getElem?_eq_none hi]; exact Or.inl rfl

theorem sampleAt_mem (l : List (XF K)) {i : ℕ} (hi : i < l.length) : sampleAt l i ∈ l := by
  unfold sampleAt
  rw [List.getD_eq_getElem?_getD, List.getElem?_eq_getElem hi]; exact List.getElem_mem hi

theorem within_self (l : List (XF K)) {i : ℕ} (hi : i < l.length) :
    sampleAt l i = .nan ∨ Among l (sampleAt l i) := by
  by_cases h : sampleAt l i = .nan
  · exact Or.inl h
  · refine Or.inr ⟨_, sampleAt_mem l hi, _, sampleAt_mem l hi, ?_, ?_⟩ <;>
    · rw [lessEq_iff]; exact XF.le_refl' _ h

/-- A linear segment stays between its ends. -/
theorem segment_within (x : K) (xp fp : List (XF K)) (j : ℕ) (hj : j + 1 < fp.length)
    (hfp : ∀ y ∈ fp, Plain y) (hxp : ∀ y ∈ xp, Plain y)
    (h1 : XF.lt (.fin x) (sampleAt xp j) = false)
    (h2 : XF.le (sampleAt xp (j + 1)) (.fin x) = false) :
    segment (.fin x) xp fp j = .nan ∨ Among fp (segment (.fin x) xp fp j) := by
  have hself := within_self fp (show j < fp.length by omega)
  have m1 := sampleAt_mem fp (show j < fp.length by omega)
  have m2 := sampleAt_mem fp hj
  unfold segment
  rcases sampleAt_plain xp hxp j with a | ⟨a, ha⟩
  · rw [a]
    have e : ∀ s t y : XF K, ((s.div (t.sub .nan)).mul (XF.sub (.fin x) .nan)).add y = .nan := by
      intro s t y; cases s <;> cases t <;> cases y <;> rfl
    simp only [e]
    simp only [XF.isNan_nan, if_true]
    have e2 : ∀ s t y z : XF K, ((s.div (t.sub .nan)).mul z).add y = .nan := by
      intro s t y z; cases s <;> cases t <;> cases y <;> cases z <;> rfl
    rw [e2]
    simp only [XF.isNan_nan, Bool.true_and]
    split_ifs
    · exact hself
    · exact Or.inl rfl
  · rcases sampleAt_plain xp hxp (j + 1) with b | ⟨b, hb⟩
    · rw [b]
      have e2 : ∀ s t y z : XF K, ((s.div (XF.sub .nan t)).mul z).add y = .nan := by
        intro s t y z; cases s <;> cases t <;> cases y <;> cases z <;> rfl
      simp only [e2, XF.isNan_nan, if_true, Bool.true_and]
      split_ifs
      · exact hself
      · exact Or.inl rfl
    · rw [ha] at h1
      rw [hb] at h2
      have hax : a ≤ x := by simpa using h1
      have hxb : x < b := by simpa using h2
      rw [ha, hb]
      rcases sampleAt_plain fp hfp j with c | ⟨c, hc⟩
      · rw [c]
        have e : ∀ s z y : XF K, (((s.sub .nan).div z).mul y).add .nan = .nan := by
          intro s z y; cases s <;> cases z <;> cases y <;> rfl
        have e2 : ∀ s z y w : XF K, (((s.sub .nan).div z).mul y).add w = .nan := by
          intro s z y w; cases s <;> cases z <;> cases y <;> cases w <;> rfl
        simp only [e2, XF.isNan_nan, if_true, Bool.true_and]
        split_ifs
        · exact Or.inl rfl
        · exact Or.inl rfl
      · rcases sampleAt_plain fp hfp (j + 1) with d | ⟨d, hd⟩
        · rw [d]
          have e2 : ∀ s z y w : XF K, (((XF.sub .nan s).div z).mul y).add w = .nan := by
            intro s z y w; cases s <;> cases z <;> cases y <;> cases w <;> rfl
          simp only [e2, XF.isNan_nan, if_true, Bool.true_and]
          have : XF.eqb (sampleAt fp j) .nan = false := by rw [hc]; rfl
          rw [this]
          exact Or.inl rfl
        · rw [hc] at m1
          rw [hd] at m2
          rw [hc, hd]
          have hba : b - a ≠ 0 := by linarith [sub_pos.2 (lt_of_le_of_lt hax hxb)]
          have hpos : 0 < b - a := by linarith
          have ev : ((((XF.fin d).sub (.fin c)).div ((XF.fin b).sub (.fin a))).mul
              ((XF.fin x).sub (.fin a))).add (.fin c) =
              .fin ((d - c) / (b - a) * (x - a) + c) := by
            simp only [XF.sub_fin, XF.div_fin _ _ hba, XF.mul_fin, XF.add_fin]
          simp only [ev, XF.isNan_fin, Bool.false_eq_true, if_false]
          right
          have t0 : 0 ≤ (x - a) / (b - a) := div_nonneg (by linarith) hpos.le
          have t1 : (x - a) / (b - a) ≤ 1 := (div_le_one hpos).2 (by linarith)
          have hv : (d - c) / (b - a) * (x - a) + c = c + (d - c) * ((x - a) / (b - a)) := by ring
          rw [hv]
          rcases le_total c d with h | h
          · refine ⟨_, m1, _, m2, ?_, ?_⟩ <;> rw [lessEq_iff] <;> simp
            · exact mul_nonneg (by linarith) t0
            · nlinarith [mul_le_mul_of_nonneg_left t1 (sub_nonneg.2 h)]
          · refine ⟨_, m2, _, m1, ?_, ?_⟩ <;> rw [lessEq_iff] <;> simp
            · nlinarith [mul_le_mul_of_nonneg_left t1 (sub_nonneg.2 h)]
            · exact mul_nonpos_of_nonpos_of_nonneg (by linarith) t0

/-- One interpolated value, for any samples (sorted or not): NaN or between two sampled values. -/
theorem interpOne_within (xp fp : List (XF K)) (x : K) (guess : ℕ) (hlen : fp.length = xp.length)
    (hne : 1 ≤ xp.length) (hfp : ∀ y ∈ fp, Plain y) (hxp : ∀ y ∈ xp, Plain y) :
    (interpOne xp fp (.fin x) guess).1 = .nan ∨ Among fp (interpOne xp fp (.fin x) guess).1 := by
  unfold interpOne
  by_cases h1 : xp.length = 1
  · rw [if_pos h1]; exact within_self fp (by omega)
  · rw [if_neg h1]
    simp only [XF.isNan_fin, Bool.false_eq_true, if_false]
    by_cases h2 : XF.lt (sampleAt xp (xp.length - 1)) (.fin x) = true
    · rw [if_pos h2]; exact within_self fp (by omega)
    · rw [if_neg h2]
      by_cases h3 : XF.lt (.fin x) (sampleAt xp 0) = true
      · rw [if_pos h3]; exact within_self fp (by omega)
      · rw [if_neg h3]
        obtain ⟨a, b, c⟩ := search_spec (.fin x) xp guess (by omega) (by simp) (by simpa using h3)
        cases hj : searchInside (.fin x) xp guess with
        | zero => exact within_self fp (by omega)
        | succ j =>
          rw [hj] at a b c
          simp only
          by_cases h4 : j = xp.length - 1
          · rw [if_pos h4]; exact within_self fp (by omega)
          · rw [if_neg h4]
            by_cases h5 : XF.eqb (sampleAt xp j) (.fin x) = true
            · rw [if_pos h5]; exact within_self fp (by omega)
            · rw [if_neg h5]
              refine segment_within x xp fp j (by omega) hfp hxp ?_ ?_
              · rcases b with b | b
                · omega
                · simpa using b
              · rcases c with c | c
                · omega
                · exact c

theorem interp_length (xp fp : List (XF K)) : ∀ xs g, (interpFrom xp fp xs g).length = xs.length := by
  intro xs
  induction xs with
  | nil => intro g; rfl
  | cons x xs ih => intro g; simp [interpFrom, ih]

/-- Every value of `np.interp` is one step of the search from some guess. -/
theorem interp_get (xp fp : List (XF K)) : ∀ xs g i (hi : i < xs.length), ∃ g',
    (interpFrom xp fp xs g)[i]? = some (interpOne xp fp xs[i] g').1 := by
  intro xs
  induction xs with
  | nil => intro g i hi; simp at hi
  | cons x xs ih =>
    intro g i hi
    cases i with
    | zero => exact ⟨g, rfl⟩
    | succ i =>
      obtain ⟨g', h⟩ := ih (interpOne xp fp x g).2 i (by simpa using hi)
      exact ⟨g', by simpa [interpFrom] using h⟩

/-- **C59** Every value that `np.interp` gives at finite points is NaN or lies between two sampled
values, whatever the samples (sorted or not, with NaN or not), and there is one per point. -/
theorem C59_interp (xs xp fp : List (XF K)) (hlen : fp.length = xp.length) (hne : xp ≠ [])
    (hxs : ∀ x ∈ xs, ∃ k, x = .fin k) (hfp : ∀ y ∈ fp, Plain y) (hxp : ∀ y ∈ xp, Plain y) :
    (npInterp xs xp fp).length = xs.length ∧
    ∀ v ∈ npInterp xs xp fp, v = .nan ∨ Among fp v := by
  refine ⟨interp_length _ _ _ _, ?_⟩
  intro v hv
  obtain ⟨i, hi, rfl⟩ := List.getElem_of_mem hv
  have hi' : i < xs.length := by rwa [npInterp, interp_length] at hi
  obtain ⟨g', hg⟩ := interp_get xp fp xs 0 i hi'
  unfold npInterp at hi ⊢
  rw [List.getElem?_eq_getElem hi] at hg
  rw [Option.some.inj hg]
  obtain ⟨k, hk⟩ := hxs _ (List.getElem_mem hi')
  rw [hk]
  exact interpOne_within xp fp k g' hlen (by
    have := List.length_pos_iff.2 hne; omega) hfp hxp

/-- The samples are finite and strictly increasing. -/
def Spec.Increasing (xp : List (XF K)) (X : ℕ → K) : Prop :=
  (∀ i < xp.length, xp[i]? = some (.fin (X i))) ∧ ∀ i j, i < j → j < xp.length → X i < X j

theorem sampleAt_eq {l : List (XF K)} {i : ℕ} {v : XF K} (h : l[i]? = some v) : sampleAt l i = v := by
  unfold sampleAt
  rw [List.getD_eq_getElem?_getD, h]; rfl

/-- One interpolated value between two neighbouring samples of an increasing list. -/
theorem interpOne_linear (xp fp : List (XF K)) (X F : ℕ → K) (hX : Increasing xp X)
    (hlen : fp.length = xp.length) (hF : ∀ i < fp.length, fp[i]? = some (.fin (F i))) (guess : ℕ)
    (x : K) (i : ℕ) (hi : i + 1 < xp.length) (h1 : X i ≤ x) (h2 : x < X (i + 1)) :
    (interpOne xp fp (.fin x) guess).1 =
      .fin (F i + (F (i + 1) - F i) / (X (i + 1) - X i) * (x - X i)) := by
  have sx : ∀ k < xp.length, sampleAt xp k = .fin (X k) := fun k hk => sampleAt_eq (hX.1 k hk)
  have sf : ∀ k < xp.length, sampleAt fp k = .fin (F k) :=
    fun k hk => sampleAt_eq (hF k (by omega))
  have mono : ∀ a b, a ≤ b → b < xp.length → X a ≤ X b := by
    intro a b hab hb
    rcases Nat.lt_or_ge a b with h | h
    · exact (hX.2 a b h hb).le
    · obtain rfl : a = b := by omega
      exact le_rfl
  unfold interpOne
  rw [if_neg (by omega), if_neg (by simp), if_neg, if_neg]
  · obtain ⟨a, b, c⟩ := search_spec (.fin x) xp guess (by omega) (by simp) (by
      rw [sx 0 (by omega)]
      simpa using (mono 0 i (by omega) (by omega)).trans h1)
    have hj : searchInside (.fin x) xp guess = i + 1 := by
      generalize searchInside (.fin x) xp guess = r at *
      rcases Nat.lt_trichotomy r (i + 1) with h | h | h
      · rcases c with c | c
        · omega
        · rw [sx r (by omega)] at c
          have : x < X r := by simpa using c
          have := mono r i (by omega) (by omega)
          linarith
      · exact h
      · rcases b with b | b
        · omega
        · rw [sx (r - 1) (by omega)] at b
          have : X (r - 1) ≤ x := by simpa using b
          have := mono (i + 1) (r - 1) (by omega) (by omega)
          linarith
    rw [hj]
    simp only
    rw [if_neg (by omega), sx i (by omega), sf i (by omega)]
    by_cases he : X i = x
    · rw [if_pos (by simp [he]), he, sub_self, mul_zero, add_zero]
    · rw [if_neg (by simp [he])]
      have hba : X (i + 1) - X i ≠ 0 := by linarith [sub_pos.2 (lt_of_le_of_lt h1 h2)]
      unfold segment
      simp only [sx i (by omega), sx (i + 1) (by omega), sf i (by omega), sf (i + 1) (by omega),
        XF.sub_fin, XF.div_fin _ _ hba, XF.mul_fin, XF.add_fin, XF.isNan_fin, Bool.false_eq_true,
        if_false]
      congr 1
      ring
  · rw [sx 0 (by omega)]
    simpa using (mono 0 i (by omega) (by omega)).trans h1
  · rw [sx _ (by omega)]
    simpa using h2.le.trans (mono (i + 1) (xp.length - 1) (by omega) (by omega))

/-- **C59** At strictly increasing finite samples `np.interp` is the piecewise linear function
through them: it hits the sampled values at the samples and is linear between. -/
theorem C59_linear (xs xp fp : List (XF K)) (X F : ℕ → K) (hX : Increasing xp X)
    (hlen : fp.length = xp.length) (hF : ∀ i < fp.length, fp[i]? = some (.fin (F i)))
    (k : ℕ) (x : K) (hk : xs[k]? = some (.fin x)) (i : ℕ) (hi : i + 1 < xp.length)
    (h1 : X i ≤ x) (h2 : x < X (i + 1)) :
    (npInterp xs xp fp)[k]? =
      some (.fin (F i + (F (i + 1) - F i) / (X (i + 1) - X i) * (x - X i))) := by
  obtain ⟨hk', hk⟩ := List.getElem?_eq_some_iff.1 hk
  obtain ⟨g', hg⟩ := interp_get xp fp xs 0 k hk'
  unfold npInterp
  rw [hg, hk, interpOne_linear xp fp X F hX hlen hF g' x i hi h1 h2]

theorem nanargmin_plain (l : List (XF K)) (hl : ∀ x ∈ l, Plain x) (i : ℕ) (h : nanargmin l = .ok i) :
    i < l.length ∧ ∃ m, sampleAt l i = .fin m ∧ nanmin l = some (.fin m) := by
  obtain ⟨h1, h2, -⟩ := nanargmin_ok l i h
  refine ⟨h1, ?_⟩
  have hno : ¬ ∀ x ∈ l, x = .nan := by
    intro hall
    rw [(nanargmin_error l .valueError).2 ⟨rfl, hall⟩] at h
    cases h
  cases hm : nanmin l with
  | none => exact absurd ((nanmin_spec l).1.1 hm) hno
  | some y =>
    obtain ⟨hy, hyn, hmin⟩ := (nanmin_spec l).2 y hm
    rcases hl y hy with rfl | ⟨m, rfl⟩
    · exact absurd rfl hyn
    · refine ⟨m, ?_, rfl⟩
      have hle : XF.le (sampleAt l i) (.fin m) = true := by
        rcases h2 _ hy with h | h | h
        · cases h
        · exact h
        · exact absurd h.2 (by simp)
      rcases sampleAt_plain l hl i with hn | ⟨a, ha⟩
      · rw [hn] at hle; simp at hle
      · have hge := hmin _ (sampleAt_mem l h1) (by rw [ha]; simp)
        rw [lessEq_iff, ha] at hge
        rw [ha] at hle
        rw [ha]
        congr 1
        exact le_antisymm (by simpa using hle) (by simpa using hge)

/-- The two sides of the smallest radius: what `_interpolate_scale_values` returns at the index of a
radius factor. -/
theorem scales_ok (dy : XF K) (rf fy radius : List (XF K)) (hne : rf ≠ []) (i : ℕ) (hi : nanargmin radius = .ok i) :
    ∃ v : List (XF K), Shallot.interpolateScales dy rf fy radius =
        .ok (v.map (Geometry.determineFx dy), v) ∧ v.length = 2 * rf.length - 1 ∧
      v[rf.length - 1]? = some (sampleAt fy i) ∧
      (∀ k, 0 < k → k < rf.length → v[rf.length - 1 + k]? = (npInterp rf
        ((radius.map fun r => r.div (nanminOf radius)).drop i) (fy.drop i))[k]?) ∧
      (∀ k, 0 < k → k < rf.length → v[rf.length - 1 - k]? = (npInterp rf
        ((radius.map fun r => r.div (nanminOf radius)).take (i + 1)).reverse
        (fy.take (i + 1)).reverse)[k]?) := by
  have hn : 0 < rf.length := List.length_pos_iff.2 hne
  unfold Shallot.interpolateScales
  simp only
  rw [hi, ok_bind]
  refine ⟨_, rfl, ?_, ?_, ?_, ?_⟩
  · simp only [List.length_append, List.length_dropLast, List.length_reverse, List.length_tail,
      npInterp, interp_length, List.length_singleton]
    omega
  · rw [List.append_assoc, List.getElem?_append_right (by
      simp [npInterp, interp_length])]
    simp [npInterp, interp_length]
  · intro k h0 hk
    rw [List.append_assoc, List.getElem?_append_right (by
      simp [npInterp, interp_length])]
    simp only [List.length_dropLast, List.length_reverse, npInterp, interp_length]
    rw [show rf.length - 1 + k - (rf.length - 1) = k by omega]
    obtain ⟨k, rfl⟩ : ∃ j, k = j + 1 := ⟨k - 1, by omega⟩
    simp
  · intro k h0 hk
    rw [List.append_assoc, List.getElem?_append_left (by
      simp [npInterp, interp_length]; omega)]
    rw [List.getElem?_dropLast, if_pos (by simp [npInterp, interp_length]; omega),
      List.getElem?_reverse (by simp [npInterp, interp_length]; omega)]
    simp only [npInterp, interp_length]
    congr 1
    omega

/-- **C59** For samples of ordinary numbers and NaN with a smallest radius that is not zero, and
finite radius factors: the result has `2 num_rf - 1` entries, the middle one is the `fy` of the
smallest radius, every one before it is NaN or between two `fy` sampled on the horizontal side, and
every one after it is NaN or between two `fy` sampled on the vertical side.  Without any number it
raises. -/
theorem C59_scales (dy : XF K) (rf fy radius : List (XF K)) (hlen : fy.length = radius.length)
    (hne : rf ≠ []) (hrf : ∀ x ∈ rf, ∃ k, x = .fin k) (hfy : ∀ x ∈ fy, Plain x)
    (hr : ∀ x ∈ radius, Plain x) (h0 : ∀ x ∈ radius, x ≠ .fin 0) :
    ((∀ x ∈ radius, x = .nan) ∧
      Shallot.interpolateScales dy rf fy radius = .error .valueError) ∨
    ∃ (i : ℕ) (m : K) (v : List (XF K)),
      radius[i]? = some (.fin m) ∧ (∀ x ∈ radius, x = .nan ∨ LessEq (.fin m) x) ∧
      Shallot.interpolateScales dy rf fy radius = .ok (v.map (Geometry.determineFx dy), v) ∧
      v.length = 2 * rf.length - 1 ∧ v[rf.length - 1]? = fy[i]? ∧
      (∀ k x, k < rf.length - 1 → v[k]? = some x → x = .nan ∨ Among (fy.take (i + 1)) x) ∧
      (∀ k x, rf.length - 1 < k → v[k]? = some x → x = .nan ∨ Among (fy.drop i) x) := by
  cases hi : nanargmin radius with
  | error e =>
    obtain ⟨rfl, hall⟩ := (nanargmin_error radius e).1 hi
    refine Or.inl ⟨hall, ?_⟩
    unfold Shallot.interpolateScales
    simp only
    rw [hi, error_bind]
  | ok i =>
    right
    obtain ⟨hil, m, hm, hmin⟩ := nanargmin_plain radius hr i hi
    obtain ⟨v, hv, hvl, hmid, hup, hdown⟩ := scales_ok dy rf fy radius hne i hi
    have hget : radius[i]? = some (.fin m) := by
      unfold sampleAt at hm
      rw [List.getD_eq_getElem?_getD, List.getElem?_eq_getElem hil] at hm
      rw [List.getElem?_eq_getElem hil]
      exact congrArg some hm
    have hm0 : m ≠ 0 := by
      rintro rfl
      exact h0 _ (List.mem_of_getElem? hget) rfl
    have hfr : ∀ x ∈ radius.map fun r => r.div (nanminOf radius), Plain x := by
      intro x hx
      obtain ⟨y, hy, rfl⟩ := List.mem_map.1 hx
      unfold nanminOf
      rw [hmin]
      rcases hr y hy with rfl | ⟨z, rfl⟩
      · exact Or.inl rfl
      · exact Or.inr ⟨z / m, XF.div_fin _ _ hm0⟩
    refine ⟨i, m, v, hget, ?_, hv, hvl, ?_, ?_, ?_⟩
    · intro x hx
      by_cases hxn : x = .nan
      · exact Or.inl hxn
      · exact Or.inr (((nanmin_spec radius).2 _ hmin).2.2 x hx hxn)
    · rw [hmid]
      unfold sampleAt
      rw [List.getD_eq_getElem?_getD, List.getElem?_eq_getElem (by omega)]
      rfl
    · intro k x hk hx
      have := hdown (rf.length - 1 - k) (by omega) (by omega)
      rw [show rf.length - 1 - (rf.length - 1 - k) = k by omega, hx] at this
      have hmem := List.mem_of_getElem? this.symm
      have hlen' : (radius.map fun r => r.div (nanminOf radius)).length = fy.length := by simp [hlen]
      rcases (C59_interp rf ((radius.map fun r => r.div (nanminOf radius)).take (i + 1)).reverse
          (fy.take (i + 1)).reverse (by
            simp only [List.length_reverse, List.length_take, hlen']) (by
            intro h
            have := congrArg List.length h
            rw [List.length_reverse, List.length_take, hlen', hlen] at this
            simp only [List.length_nil] at this
            omega) hrf (by
            intro y hy
            rw [List.mem_reverse] at hy
            exact hfy y (List.mem_of_mem_take hy)) (by
            intro y hy
            rw [List.mem_reverse] at hy
            exact hfr y (List.mem_of_mem_take hy))).2 x hmem with h | ⟨a, ha, b, hb, hab⟩
      · exact Or.inl h
      · rw [List.mem_reverse] at ha hb
        exact Or.inr ⟨a, ha, b, hb, hab⟩
    · intro k x hk hx
      have hkl : k < 2 * rf.length - 1 := by
        rw [← hvl]; exact (List.getElem?_eq_some_iff.1 hx).1
      have := hup (k - (rf.length - 1)) (by omega) (by omega)
      rw [show rf.length - 1 + (k - (rf.length - 1)) = k by omega, hx] at this
      have hmem := List.mem_of_getElem? this.symm
      exact (C59_interp rf ((radius.map fun r => r.div (nanminOf radius)).drop i) (fy.drop i) (by
            simp [hlen]) (by
            intro h
            have := congrArg List.length h
            simp at this
            omega) hrf (fun y hy => hfy y (List.mem_of_mem_drop hy))
            (fun y hy => hfr y (List.mem_of_mem_drop hy))).2 x hmem

/-- **C59** If the radii over the smallest one increase strictly away from it, each side of the
result is the piecewise linear function through the samples: the value at radius factor `x` between
the fractions `X j` and `X (j + 1)`. -/
theorem C59_piecewise (dy : XF K) (rf fy radius : List (XF K)) (hlen : fy.length = radius.length)
    (i : ℕ) (hi : nanargmin radius = .ok i) (m : K) (hm : nanmin radius = some (.fin m))
    (F : ℕ → K) (hF : ∀ j < fy.length, fy[j]? = some (.fin (F j)))
    (R : ℕ → K) (hR : ∀ j < radius.length, radius[j]? = some (.fin (R j))) (hm0 : 0 < m)
    (k : ℕ) (x : K) (h0 : 0 < k) (hk : rf[k]? = some (.fin x)) :
    ∃ v, Shallot.interpolateScales dy rf fy radius = .ok (v.map (Geometry.determineFx dy), v) ∧
      ((∀ a b, i ≤ a → a < b → b < radius.length → R a < R b) → ∀ j, i ≤ j →
        j + 1 < radius.length → R j / m ≤ x → x < R (j + 1) / m →
        v[rf.length - 1 + k]? = some (.fin (F j + (F (j + 1) - F j) /
          (R (j + 1) / m - R j / m) * (x - R j / m)))) ∧
      ((∀ a b, a < b → b ≤ i → R b < R a) → ∀ j, j < i →
        R (j + 1) / m ≤ x → x < R j / m →
        v[rf.length - 1 - k]? = some (.fin (F (j + 1) + (F j - F (j + 1)) /
          (R j / m - R (j + 1) / m) * (x - R (j + 1) / m)))) := by
  have hkl : k < rf.length := (List.getElem?_eq_some_iff.1 hk).1
  obtain ⟨v, hv, hvl, hmid, hup, hdown⟩ := scales_ok dy rf fy radius
    (by rintro rfl; simp at hk) i hi
  have hil : i < radius.length := (nanargmin_ok radius i hi).1
  have hfr : ∀ j < radius.length, (radius.map fun r => r.div (nanminOf radius))[j]? =
      some (.fin (R j / m)) := by
    intro j hj
    rw [List.getElem?_map, hR j hj]
    unfold nanminOf
    rw [hm]
    exact congrArg some (XF.div_fin _ _ hm0.ne')
  refine ⟨v, hv, ?_, ?_⟩
  · intro hinc j hj hj1 hx1 hx2
    rw [hup k h0 hkl]
    have := C59_linear rf ((radius.map fun r => r.div (nanminOf radius)).drop i) (fy.drop i)
      (fun j => R (i + j) / m) (fun j => F (i + j)) ⟨by
        intro a ha
        rw [List.getElem?_drop]
        simp only [List.length_drop, List.length_map] at ha
        exact hfr _ (by omega), by
        intro a b hab hb
        simp only [List.length_drop, List.length_map] at hb
        exact div_lt_div_of_pos_right (hinc _ _ (by omega) (by omega) (by omega)) hm0⟩
      (by simp [hlen]) (by
        intro a ha
        rw [List.getElem?_drop]
        simp only [List.length_drop] at ha
        exact hF _ (by omega)) k x hk (j - i) (by simp; omega)
    simp only [show i + (j - i) = j by omega, show i + (j - i + 1) = j + 1 by omega] at this
    exact this hx1 hx2
  · intro hdec j hj hx1 hx2
    rw [hdown k h0 hkl]
    have lt : ((radius.map fun r => r.div (nanminOf radius)).take (i + 1)).length = i + 1 := by
      simp; omega
    have lf : (fy.take (i + 1)).length = i + 1 := by simp; omega
    have := C59_linear rf ((radius.map fun r => r.div (nanminOf radius)).take (i + 1)).reverse
      (fy.take (i + 1)).reverse
      (fun j => R (i - j) / m) (fun j => F (i - j)) ⟨by
        intro a ha
        rw [List.length_reverse, lt] at ha
        rw [List.getElem?_reverse (by omega), lt, List.getElem?_take_of_lt (by omega),
          hfr _ (by omega), show i + 1 - 1 - a = i - a by omega], by
        intro a b hab hb
        rw [List.length_reverse, lt] at hb
        exact div_lt_div_of_pos_right (hdec _ _ (by omega) (by omega)) hm0⟩
      (by rw [List.length_reverse, List.length_reverse, lt, lf]) (by
        intro a ha
        rw [List.length_reverse, lf] at ha
        rw [List.getElem?_reverse (by omega), lf, List.getElem?_take_of_lt (by omega),
          hF _ (by omega), show i + 1 - 1 - a = i - a by omega]) k x hk (i - (j + 1)) (by rw [List.length_reverse, lt]; omega)
    simp only [show i - (i - (j + 1)) = j + 1 by omega,
      show i - (i - (j + 1) + 1) = j by omega] at this
    exact this hx1 hx2

end

/-! ## C58 without a finite largest centre -/

theorem linspace_last_inf (a : ℝ) (n : ℕ) :
    (linspace (.fin a) .pinf n).getLastD .nan = .nan ∨
    (linspace (.fin a) .pinf n).getLastD .nan = .pinf := by
  rcases Nat.lt_or_ge n 2 with h | h
  · left
    obtain rfl | rfl : n = 0 ∨ n = 1 := by omega
    · rfl
    · simp [linspace, XF.sub, XF.neg, XF.add, XF.mul, XF.infSign]
  · right
    have hlen := linspace_length (.fin a) .pinf n
    have hne : linspace (.fin a) .pinf n ≠ [] := linspace_ne_nil _ _ (by omega)
    rw [List.getLastD_eq_getLast?, List.getLast?_eq_getElem?, hlen]
    unfold linspace
    simp only
    rw [if_pos (by omega), List.getElem?_set_self (by simp; omega)]
    rfl

theorem linspace_nan (b : XF ℝ) (hb : b = .nan) (a : ℝ) (n : ℕ) :
    (linspace (.fin a) b n).getLastD .nan = .nan := by
  subst hb
  rcases Nat.lt_or_ge n 2 with h | h
  · obtain rfl | rfl : n = 0 ∨ n = 1 := by omega
    · rfl
    · simp [linspace, XF.sub, XF.neg, XF.add, XF.mul]
  · have hlen := linspace_length (.fin a) .nan n
    rw [List.getLastD_eq_getLast?, List.getLast?_eq_getElem?, hlen]
    unfold linspace
    simp only
    rw [if_pos (by omega), List.getElem?_set_self (by simp; omega)]
    rfl

theorem determineFy_pinf (dy : XF ℝ) : Geometry.determineFy dy .pinf = .nan := by
  cases dy with
  | fin d =>
    have h1 : (0 : ℝ) < 1 + 4 * (d * d) := by nlinarith [mul_self_nonneg d]
    have h2 : XF.infSign (1 + 4 * (d * d)) = (.pinf : XF ℝ) := by simp [XF.infSign, h1]
    have h3 : XF.infSign (4 : ℝ) = .pinf := by simp [XF.infSign]
    by_cases hd : d * d = 0
    · simp [Geometry.determineFy, XF.sq, XF.mul, XF.add, XF.sub, XF.neg, hd,
        XF.infSign, XF.le, XF.eqb, XF.div, XF.sqrt]
    · have h4 : 0 < d * d := lt_of_le_of_ne (mul_self_nonneg d) (Ne.symm hd)
      have h5 : XF.infSign (d * d) = (.pinf : XF ℝ) := by simp [XF.infSign, h4]
      simp [Geometry.determineFy, XF.sq, XF.mul, XF.add, XF.sub, XF.neg, h2, h3, h5, XF.le,
        XF.eqb, XF.div, XF.sqrt]
  | nan => simp [Geometry.determineFy, XF.sq, XF.mul, XF.add, XF.sub, XF.neg, XF.infSign, XF.le,
      XF.eqb, XF.div, XF.sqrt]
  | pinf => simp [Geometry.determineFy, XF.sq, XF.mul, XF.add, XF.sub, XF.neg, XF.infSign, XF.le,
      XF.eqb, XF.div, XF.sqrt]
  | ninf => simp [Geometry.determineFy, XF.sq, XF.mul, XF.add, XF.sub, XF.neg, XF.infSign, XF.le,
      XF.eqb, XF.div, XF.sqrt]

theorem determineFx_pinf (dy : XF ℝ) : Geometry.determineFx dy .pinf = .nan := by
  cases dy with
  | fin d =>
    have h1 : (0 : ℝ) < 1 + 4 * (d * d) := by nlinarith [mul_self_nonneg d]
    have h2 : XF.infSign (1 + 4 * (d * d)) = (.pinf : XF ℝ) := by simp [XF.infSign, h1]
    have h0 : RealFns.sqrt (0 : ℝ) = 0 := Real.sqrt_zero
    have h3 : XF.infSign (0 : ℝ) = .nan := by simp [XF.infSign]
    simp [Geometry.determineFx, XF.sq, XF.mul, XF.add, XF.sub, XF.neg, h2, XF.le, XF.div, XF.sqrt,
      h0, h3]
  | nan => simp [Geometry.determineFx, XF.sq, XF.mul, XF.add, XF.sub, XF.neg, XF.le,
      XF.div, XF.sqrt]
  | pinf => simp [Geometry.determineFx, XF.sq, XF.mul, XF.add, XF.sub, XF.neg, XF.infSign, XF.le,
      XF.div, XF.sqrt]
  | ninf => simp [Geometry.determineFx, XF.sq, XF.mul, XF.add, XF.sub, XF.neg, XF.infSign, XF.le,
      XF.div, XF.sqrt]

theorem determineFy_nan (dy : XF ℝ) : Geometry.determineFy dy .nan = .nan := by
  cases dy <;> simp [Geometry.determineFy, XF.sq, XF.mul, XF.add, XF.sub, XF.neg, XF.le, XF.eqb,
      XF.div, XF.sqrt]

theorem fxyArray_last (m : XF ℝ) (hm : m = .nan ∨ m = .pinf) (n : ℕ) :
    (Shallot.fxyArray m 1 n).getLastD .nan = .nan ∨
    (Shallot.fxyArray m 1 n).getLastD .nan = .pinf := by
  have e : Shallot.fxyArray m 1 n = linspace (.fin 1) m n := by
    unfold Shallot.fxyArray
    rcases hm with rfl | rfl
    · simp [XF.mul]
    · simp [XF.mul, XF.infSign]
  rw [e]
  rcases hm with rfl | rfl
  · exact Or.inl (linspace_nan _ rfl _ _)
  · exact linspace_last_inf _ _

/-- **C58** Without a finite largest centre the loops end, too, in their first round: they return,
or (for minus infinity) raise. -/
theorem C58_infinite (c : Shallot.Cell ℝ) (s0 : List (XF ℝ × XF ℝ)) :
    ((c.maxX = .nan ∨ c.maxX = .pinf) → Shallot.horizontalLoop c 1 [] [] =
      some (.ok ((samplesH c 1).map Prod.snd, Shallot.radii c (samplesH c 1)))) ∧
    (c.maxX = .ninf → Shallot.horizontalLoop c 1 [] [] = some (.error .attributeError)) ∧
    ((c.maxY = .nan ∨ c.maxY = .pinf) →
      Shallot.verticalLoop c 1 (s0.map Prod.snd) (Shallot.radii c s0) =
        some (.ok ((s0 ++ samplesV c 1).map Prod.snd, Shallot.radii c (s0 ++ samplesV c 1)))) ∧
    (c.maxY = .ninf → Shallot.verticalLoop c 1 (s0.map Prod.snd) (Shallot.radii c s0) =
      some (.error .attributeError)) := by
  have far : ∀ (m : XF ℝ) n, m = .nan ∨ m = .pinf → Shallot.tooFar m n = false := by
    rintro m n (rfl | rfl)
    · rfl
    · simp [Shallot.tooFar, XF.mul, XF.infSign]
  have near : ∀ n, Shallot.tooFar (.ninf : XF ℝ) n = true := by
    intro n
    have h : XF.infSign (-100 : ℝ) = .ninf := by
      unfold XF.infSign; rw [if_neg (by norm_num), if_pos (by norm_num)]
    simp [Shallot.tooFar, XF.mul, h, XF.lt]
  have nd : ∀ a : XF ℝ, XF.div .nan a = .nan := by intro a; cases a <;> rfl
  have hv : Shallot.verticalLoop c 1 (s0.map Prod.snd) (Shallot.radii c s0) =
      Shallot.verticalLoop c (0 + 1) ((s0 ++ samplesV c 0).map Prod.snd)
        (Shallot.radii c (s0 ++ samplesV c 0)) := by simp [samplesV]
  have hh : Shallot.horizontalLoop c 1 [] [] =
      Shallot.horizontalLoop c (0 + 1) ((samplesH c 0).map Prod.snd)
        (Shallot.radii c (samplesH c 0)) := by simp [samplesH, Shallot.radii]
  refine ⟨?_, ?_, ?_, ?_⟩
  · intro hm
    have ho : outermostH c 1 = .nan := by
      unfold outermostH
      have : (Shallot.radii c (Shallot.horizontalScales c 1)).headD .nan = .nan := by
        unfold Shallot.radii Shallot.horizontalScales
        rw [List.map_reverse, List.headD_eq_head?_getD, List.head?_reverse]
        have hl := fxyArray_last c.maxX hm c.num
        rw [List.getLastD_eq_getLast?] at hl
        rw [List.map_map, List.getLast?_map]
        cases h : (Shallot.fxyArray c.maxX 1 c.num).getLast? with
        | none => rfl
        | some x =>
          rw [h] at hl
          simp only [Option.getD_some] at hl
          simp only [Option.map_some, Option.getD_some, Function.comp]
          apply diskParameters_nan
          rcases hl with rfl | rfl
          · exact Or.inl rfl
          · exact Or.inr (determineFy_pinf _)
      rw [this, nd]
    rw [hh, horizontalLoop_step, ho, far _ _ hm, far _ _ hm]
    simp
  · intro hm
    rw [hh, horizontalLoop_step, hm, near, near]
    simp
  · intro hm
    have ho : outermostV c s0 1 = .nan := by
      unfold outermostV
      have : (Shallot.radii c (Shallot.verticalScales c 1)).getLastD .nan = .nan := by
        unfold Shallot.radii Shallot.verticalScales
        have hl := fxyArray_last c.maxY hm c.num
        rw [List.getLastD_eq_getLast?] at hl
        rw [List.getLastD_eq_getLast?, List.map_map, List.getLast?_map]
        cases h : (Shallot.fxyArray c.maxY 1 c.num).getLast? with
        | none => rfl
        | some x =>
          rw [h] at hl
          simp only [Option.getD_some] at hl
          simp only [Option.map_some, Option.getD_some, Function.comp]
          apply diskParameters_nan
          rcases hl with rfl | rfl
          · exact Or.inr rfl
          · exact Or.inl (determineFx_pinf _)
      rw [this, nd]
    rw [hv, verticalLoop_step, ho, far _ _ hm, far _ _ hm]
    simp
  · intro hm
    rw [hv, verticalLoop_step, hm, near, near]
    simp

/-- **C58** Both loops end for every cell: the `none` of the model does not occur. -/
theorem C58_ends (c : Shallot.Cell ℝ) (s0 : List (XF ℝ × XF ℝ)) :
    Shallot.horizontalLoop c 1 [] [] ≠ none ∧
    Shallot.verticalLoop c 1 (s0.map Prod.snd) (Shallot.radii c s0) ≠ none := by
  obtain ⟨i1, i2, i3, i4⟩ := C58_infinite c s0
  constructor
  · cases hm : c.maxX with
    | nan => rw [i1 (Or.inl hm)]; simp
    | pinf => rw [i1 (Or.inr hm)]; simp
    | ninf => rw [i2 hm]; simp
    | fin m =>
      obtain ⟨k, -, -, -, h | h⟩ := C58_horizontal c m hm <;> rw [h.1] <;> simp
  · cases hm : c.maxY with
    | nan => rw [i3 (Or.inl hm)]; simp
    | pinf => rw [i3 (Or.inr hm)]; simp
    | ninf => rw [i4 hm]; simp
    | fin m =>
      obtain ⟨k, -, -, -, h | h⟩ := C58_vertical c s0 m hm <;> rw [h.1] <;> simp

end Beyonce
