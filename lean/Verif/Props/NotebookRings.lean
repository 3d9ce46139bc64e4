import Verif.Notebook
import Verif.Props.Covered

/-!
# Property C113: the ring systems that the notebooks draw for the solutions
-/

set_option linter.unusedSectionVars false

namespace Beyonce
open Spec Geometry Real

/-! ## The ring system of a solution -/

/-- The ring, drawn around `(x, y)`, covers of the line on which the star moves exactly the points from `-w` to
`w`; its outer edge passes through the two ends. -/
def Spec.CoversBetween (w : ℝ) (ring : RingObj ℝ) (x y : PyVal ℝ) : Prop :=
  ∀ (C : Type) (codes : List C) (color : String) (z : ℝ),
    ((∃ (p : Pt) (P : Patch C), p.1 ^ 2 + p.2 ^ 2 < 1 ∧
      getPatch [p] codes ring x y (.str color) = .ok (some P) ∧ P.outer = [(z, 0)]) ↔ |z| < w) ∧
    ((∃ (p : Pt) (P : Patch C), p.1 ^ 2 + p.2 ^ 2 = 1 ∧
      getPatch [p] codes ring x y (.str color) = .ok (some P) ∧ P.outer = [(z, 0)]) ↔ |z| = w)

theorem outerVertex_scale (k a i t z : ℝ) (hk : 0 < k) (c p : Pt) :
    outerVertex (k * a) i t (k * c.1, k * c.2) p = (z, 0) ↔ outerVertex a i t c p = (z / k, 0) := by
  simp only [outerVertex, rotateRow, Prod.mk.injEq]
  constructor
  · rintro ⟨h1, h2⟩
    refine ⟨?_, ?_⟩
    · rw [eq_div_iff hk.ne']; linear_combination h1
    · apply mul_left_cancel₀ hk.ne'; linear_combination h2
  · rintro ⟨h1, h2⟩
    rw [eq_div_iff hk.ne'] at h1
    refine ⟨?_, ?_⟩
    · linear_combination h1
    · linear_combination k * h2

section
variable {K : Type} [Field K] [LinearOrder K] [IsStrictOrderedRing K]

theorem one_array (x : K) (hx : 0 ≤ x) : array (Notebook.one (.fin x) : PyVal K) (.int 0) .none (.bool false)
    (.str "float64") (.int 1) = .ok ⟨"float64", [1], [.fin x]⟩ := by
  refine (C03_array_ok_iff false _ _ (some (.int 0)) none (some (.int 1)) (some "float64") (by simp)
    (by simp) (by simp)).2 ⟨rfl, ⟨fun _ => ⟨.fin 0, .pinf, Or.inl ⟨0, .int 0, by simp⟩,
      Or.inr ⟨rfl, .float _⟩, by rw [less_iff]; simp, ?_⟩, ?_, ?_⟩⟩
  · intro y hy
    rw [List.mem_singleton.1 hy, not_violates_iff]
    simp [less_iff, hx]
  · rintro d hd
    cases hd
    exact ⟨1, .int 1, by simp⟩
  · rintro d hd
    cases hd
    rfl

end

theorem newRing_zero (o t i p : PyVal ℝ) :
    newRing (.npFloat .w64 (.fin 0)) o t i p = newRing (.npFloat .w64 (.fin tiny)) o t i p := by
  have h1 : checkInner .pinf (.npFloat .w64 (.fin (0 : ℝ))) = .ok (.fin tiny) := by
    have hz : eqZero (.npFloat .w64 (.fin (0 : ℝ))) = .ok true := by simp [eqZero, PyVal.num]
    unfold checkInner
    rw [hz]
    simp only [bind, Except.bind, if_true, number_float, XF.lt_pinf, XF.le_fin, not_le.2 (tiny_pos (K := ℝ)),
      decide_false, Bool.false_or, Bool.false_eq_true, if_false]
    rfl
  have h2 : checkInner .pinf (.npFloat .w64 (.fin (tiny : ℝ))) = .ok (.fin tiny) := by
    have hz : eqZero (.npFloat .w64 (.fin (tiny : ℝ))) = .ok false := by
      simp [eqZero, PyVal.num, (tiny_pos (K := ℝ)).ne']
    unfold checkInner
    rw [hz]
    simp only [bind, Except.bind, number_npFloat, Bool.false_eq_true, if_false, if_true, XF.lt_pinf,
      XF.le_fin, not_le.2 (tiny_pos (K := ℝ)), decide_false, Bool.false_or]
    rfl
  unfold newRing
  rw [h1, h2]

/-- What `RingSystem` does with the arguments of the notebooks. -/
theorem ringSystem_eq (k R i t : ℝ) (rms dx dy : XF ℝ) (hi0 : 0 ≤ i) (hi : i ≤ 90) (ht0 : -180 ≤ t)
    (ht : t ≤ 180) (hR : 0 ≤ k * R) :
    Notebook.ringSystem (.fin k) ⟨rms, .fin R, .fin i, .fin t, dx, dy⟩ =
      (newRing (.npFloat .w64 (.fin tiny)) (.npFloat .w64 (.fin (k * R))) (.npFloat .w64 (.fin (9 / 10)))
        (.float (.fin i)) (.float (.fin t)) >>= fun r => .ok ⟨.fin (1 / 2), .fin i, .fin t, [r]⟩) := by
  have n1 : number (K := ℝ) (.float (.fin (1 / 2))) (.bool false) (.float (.fin 0)) =
      .ok (.float (.fin (1 / 2))) := by
    show number (K := ℝ) (.float (.fin (1 / 2))) (.bool false) (.float (.fin 0)) (.float .pinf) (.bool false) = _
    rw [number_float]
    have : ¬ ((1 / 2 : ℝ) < 0) := by norm_num
    simp only [XF.lt_pinf, Bool.false_eq_true, if_false, XF.lt_fin, this, decide_false, Bool.false_or]
  have n2 : number (K := ℝ) (.npFloat .w64 (.fin i)) (.bool false) (.float (.fin 0)) (.float (.fin 90)) =
      .ok (.npFloat .w64 (.fin i)) := by
    show number (K := ℝ) (.npFloat .w64 (.fin i)) (.bool false) (.float (.fin 0)) (.float (.fin 90))
      (.bool false) = _
    rw [number_npFloat]
    have : ¬ ((90 : ℝ) < 0) := by norm_num
    simp only [Bool.false_eq_true, if_false, XF.lt_fin, not_lt.2 hi0, not_lt.2 hi, this, decide_false,
      Bool.false_or]
  have n3 : number (K := ℝ) (.npFloat .w64 (.fin t)) (.bool false) (.float (.fin (-180))) (.float (.fin 180)) =
      .ok (.npFloat .w64 (.fin t)) := by
    show number (K := ℝ) (.npFloat .w64 (.fin t)) (.bool false) (.float (.fin (-180))) (.float (.fin 180))
      (.bool false) = _
    rw [number_npFloat]
    have : ¬ ((180 : ℝ) < -180) := by norm_num
    simp only [Bool.false_eq_true, if_false, XF.lt_fin, not_lt.2 ht0, not_lt.2 ht, this, decide_false,
      Bool.false_or]
  have arr2 : array (Notebook.one (.fin (9 / 10)) : PyVal ℝ) (.int 0) (.int 1) (.bool false) (.str "float64")
      (.int 1) = .ok ⟨"float64", [1], [.fin (9 / 10)]⟩ := by
    refine (C03_array_ok_iff false _ _ (some (.int 0)) (some (.int 1)) (some (.int 1)) (some "float64")
      (by simp) (by simp) (by simp)).2 ⟨rfl, ⟨fun _ => ⟨.fin 0, .fin 1, Or.inl ⟨0, .int 0, by simp⟩,
        Or.inl ⟨1, .int 1, by simp⟩, by rw [less_iff]; simp, ?_⟩, ?_, ?_⟩⟩
    · intro y hy
      rw [List.mem_singleton.1 hy, not_violates_iff]
      simp only [less_iff, XF.lt_fin, Bool.false_eq_true, if_false]
      norm_num
    · rintro d hd
      cases hd
      exact ⟨1, .int 1, by simp⟩
    · rintro d hd
      cases hd
      rfl
  have sh : sameShapeArrays (K := ℝ) [Notebook.one (.fin 0), Notebook.one (.fin (k * R)),
      Notebook.one (.fin (9 / 10))] 3 = .ok () := by
    rw [C04_sameShapeArrays_iff]
    refine ⟨by simp, rfl, [_, _, _], rfl, ?_⟩
    intro a ha b hb
    simp only [List.mem_cons, List.not_mem_nil, or_false] at ha hb
    rcases ha with rfl | rfl | rfl <;> rcases hb with rfl | rfl | rfl <;> rfl
  unfold Notebook.ringSystem newSystem
  rw [XF.mul_fin]
  simp only [n1, n2, n3, one_array 0 le_rfl, one_array _ hR, arr2, sh, bind, Except.bind, PyVal.num_float,
    PyVal.num_npFloat, List.zip_cons_cons, List.zip_nil_right, buildRings, newRing_zero]
  cases newRing (.npFloat .w64 (.fin tiny)) (.npFloat .w64 (.fin (k * R))) (.npFloat .w64 (.fin (9 / 10)))
    (.float (.fin i)) (.float (.fin t)) <;> rfl

/-- **C113** The ring system of a disk that is large enough is one ring from `1e-16` to the scaled disk
radius. -/
theorem C113_system (k R i t : ℝ) (rms dx dy : XF ℝ) (hi0 : 0 ≤ i) (hi : i ≤ 90) (ht0 : -180 ≤ t) (ht : t ≤ 180)
    (hR : 1 / 10 ^ 16 < k * R) :
    Notebook.ringSystem (.fin k) ⟨rms, .fin R, .fin i, .fin t, dx, dy⟩ =
      .ok ⟨.fin (1 / 2), .fin i, .fin t,
        [⟨.fin (1 / 10 ^ 16), .fin (k * R), .fin (9 / 10), .fin i, .fin t⟩]⟩ := by
  have h0 := tiny_pos (K := ℝ)
  have hR' : (tiny : ℝ) < k * R := hR
  rw [ringSystem_eq k R i t rms dx dy hi0 hi ht0 ht (h0.trans hR').le,
    newRing_npFloat _ _ _ _ _ h0 hR' (by norm_num) (by norm_num) hi0 hi ht0 ht]
  rfl

/-- Otherwise `RingSystem` raises a `ValueError`. -/
theorem C113_small (k R i t : ℝ) (rms dx dy : XF ℝ) (hi0 : 0 ≤ i) (hi : i ≤ 90) (ht0 : -180 ≤ t) (ht : t ≤ 180)
    (h0 : 0 ≤ k * R) (hR : k * R ≤ 1 / 10 ^ 16) :
    Notebook.ringSystem (.fin k) ⟨rms, .fin R, .fin i, .fin t, dx, dy⟩ = .error .valueError := by
  rw [ringSystem_eq k R i t rms dx dy hi0 hi ht0 ht h0, ← newRing_zero]
  have h1 : checkInner .pinf (.npFloat .w64 (.fin (0 : ℝ))) = .ok (.fin tiny) := by
    have hz : eqZero (.npFloat .w64 (.fin (0 : ℝ))) = .ok true := by simp [eqZero, PyVal.num]
    unfold checkInner
    rw [hz]
    simp only [bind, Except.bind, if_true, number_float, XF.lt_pinf, XF.le_fin, not_le.2 (tiny_pos (K := ℝ)),
      decide_false, Bool.false_or, Bool.false_eq_true, if_false]
    rfl
  have hR' : k * R ≤ (tiny : ℝ) := hR
  have h2 : checkOuter (.fin tiny) (.npFloat .w64 (.fin (k * R))) = .error .valueError := by
    unfold checkOuter
    rw [number_npFloat]
    simp only [bind, Except.bind, if_true, XF.lt_pinf, XF.le_fin, hR', decide_true, Bool.true_or,
      Bool.false_eq_true, if_false]
  unfold newRing
  rw [h1]
  simp only [bind, Except.bind, h2]

/-- The numbers of a disk that makes rings are finite, and in the ranges of a ring. -/
theorem diskOfEclipse_fin {radius inclination tilt dx dy : XF ℝ}
    (h : DiskOfEclipse radius inclination tilt dx dy) :
    ∃ R i t x y : ℝ, radius = .fin R ∧ inclination = .fin i ∧ tilt = .fin t ∧ dx = .fin x ∧ dy = .fin y ∧
      0 < R ∧ 0 ≤ i ∧ i ≤ 90 ∧ -180 ≤ t ∧ t ≤ 180 ∧
      ∀ z : ℝ, ((∃ p : Pt, p.1 ^ 2 + p.2 ^ 2 < 1 ∧
        outerVertex R (deg2rad i) (deg2rad t) (x, y) p = (z, 0)) ↔ |z| < 1 / 2) ∧
      ((∃ p : Pt, p.1 ^ 2 + p.2 ^ 2 = 1 ∧
        outerVertex R (deg2rad i) (deg2rad t) (x, y) p = (z, 0)) ↔ |z| = 1 / 2) := by
  obtain ⟨R, rfl, hR, hall⟩ := h
  obtain ⟨ring, hnew, hcov⟩ := hall (R / 2) (9 / 10) (by linarith) (by linarith) (by norm_num) (by norm_num)
  obtain ⟨f1, f2, f3, f4⟩ := newRing_fields hnew
  simp only [PyVal.num_npFloat, PyVal.num_float] at f1 f2 f3 f4
  obtain ⟨i, t, x, y, rfl, rfl, rfl, rfl⟩ : ∃ i t x y : ℝ, inclination = .fin i ∧ tilt = .fin t ∧ dx = .fin x ∧
      dy = .fin y := by
    obtain ⟨p, P, -, hP, -⟩ := ((hcov Unit [] "k" 0).1).2 (by norm_num)
    have hg : getPatch [p] ([] : List Unit) ring (.npFloat .w64 dx) (.npFloat .w64 dy) (.str "k") =
        .ok (patchOf [p] [] ring dx dy) ∨ ∃ e, getPatch [p] ([] : List Unit) ring (.npFloat .w64 dx)
          (.npFloat .w64 dy) (.str "k") = .error e := by
      unfold getPatch
      cases h1 : number (.npFloat .w64 dx : PyVal ℝ) with
      | error e => exact Or.inr ⟨e, rfl⟩
      | ok a =>
      cases h2 : number (.npFloat .w64 dy : PyVal ℝ) with
      | error e => exact Or.inr ⟨e, rfl⟩
      | ok b =>
      rw [check_num h1, check_num h2]
      exact Or.inl rfl
    rcases hg with hg | ⟨e, hg⟩
    · rw [hg] at hP
      have hP' := Except.ok.inj hP
      unfold patchOf at hP'
      rw [f1, f2, f3, f4] at hP'
      split at hP'
      · rename_i e3 e4 _ _
        exact ⟨_, _, _, _, rfl, rfl, rfl, rfl⟩
      · cases hP'
    · rw [hg] at hP; cases hP
  rw [newRing_np _ _ _ _ _ (by positivity), newRing_fin _ _ _ _ _ (by positivity)] at hnew
  split_ifs at hnew with hc
  obtain ⟨-, -, -, hi, ht0, ht⟩ := hc
  cases hnew
  refine ⟨R, i, t, x, y, rfl, rfl, rfl, rfl, rfl, hR, hi.1, hi.2, ht0, ht, fun z => ?_⟩
  obtain ⟨l1, l2⟩ := hcov Unit [] "k" z
  have hP : ∀ p : Pt, getPatch [p] ([] : List Unit) ⟨.fin (R / 2), .fin R, .fin (9 / 10), .fin i, .fin t⟩
      (.npFloat .w64 (.fin x)) (.npFloat .w64 (.fin y)) (.str "k") =
      .ok (some ⟨[outerVertex R (deg2rad i) (deg2rad t) (x, y) p],
        [innerVertex (R / 2) (deg2rad i) (deg2rad t) (x, y) p], [] ++ [], 1 - 9 / 10⟩) := fun p => rfl
  have key : ∀ Q : ℝ → Prop, (∃ (p : Pt) (P : Patch Unit), Q (p.1 ^ 2 + p.2 ^ 2) ∧
      getPatch [p] [] ⟨.fin (R / 2), .fin R, .fin (9 / 10), .fin i, .fin t⟩
      (.npFloat .w64 (.fin x)) (.npFloat .w64 (.fin y)) (.str "k") = .ok (some P) ∧ P.outer = [(z, 0)]) ↔
      ∃ p : Pt, Q (p.1 ^ 2 + p.2 ^ 2) ∧ outerVertex R (deg2rad i) (deg2rad t) (x, y) p = (z, 0) := by
    intro Q
    constructor
    · rintro ⟨p, P, q1, q2, q3⟩
      rw [hP] at q2
      cases q2
      exact ⟨p, q1, by simpa using q3⟩
    · rintro ⟨p, q1, q2⟩
      exact ⟨p, _, q1, hP p, by rw [q2]⟩
  exact ⟨(key (· < 1)).symm.trans l1, (key (· = 1)).symm.trans l2⟩

/-- A disk that reaches both end points of the eclipse has at least half its length as radius. -/
theorem diskOfEclipse_radius {R i t x y : ℝ} (hR : 0 < R) (h : ∀ z : ℝ, (∃ p : Pt, p.1 ^ 2 + p.2 ^ 2 = 1 ∧
    outerVertex R (deg2rad i) (deg2rad t) (x, y) p = (z, 0)) ↔ |z| = 1 / 2) : 1 / 2 ≤ R := by
  have e := sin_sq_add_cos_sq (deg2rad t)
  have bound : ∀ z : ℝ, |z| = 1 / 2 → (z - x) ^ 2 ≤ R ^ 2 := by
    intro z hz
    obtain ⟨p, hp, hv⟩ := (h z).2 hz
    simp only [outerVertex, rotateRow, Prod.mk.injEq] at hv
    obtain ⟨v1, v2⟩ := hv
    obtain ⟨u, hu⟩ : ∃ u, u = R * p.2 * cos (deg2rad i) := ⟨_, rfl⟩
    have hu2 : u ^ 2 ≤ (R * p.2) ^ 2 := by
      rw [hu, mul_pow]
      have := cos_sq_le_one (deg2rad i)
      nlinarith [sq_nonneg (R * p.2)]
    have hn : (z - x) ^ 2 + y ^ 2 = (R * p.1) ^ 2 + u ^ 2 := by
      rw [← hu] at v1 v2
      have w1 : z - x = R * p.1 * 1 * cos (deg2rad t) + u * sin (deg2rad t) := by linarith
      have w2 : -y = R * p.1 * 1 * sin (deg2rad t) - u * cos (deg2rad t) := by linarith
      rw [w1, ← neg_sq y, w2]
      linear_combination ((R * p.1) ^ 2 + u ^ 2) * e
    have : (R * p.1) ^ 2 + (R * p.2) ^ 2 = R ^ 2 := by linear_combination R ^ 2 * hp
    nlinarith [sq_nonneg y]
  have h1 := bound (1 / 2) (by norm_num [abs_of_pos])
  have h2 := bound (-(1 / 2)) (by rw [abs_neg]; norm_num [abs_of_pos])
  nlinarith [sq_nonneg x]

/-- **C113** From a disk of the eclipse, on a scale above `2e-16`, the notebooks make a ring system of one ring.
Drawn where they draw it, that ring covers exactly the part of the path of the star between the two dashed lines
at `±0.5 * scale`, and its outer edge passes through the points where these cross the path. -/
theorem C113_covers (k : ℝ) (hk' : 2 / 10 ^ 16 < k) (row : Shallot.Solution ℝ)
    (h : DiskOfEclipse row.diskRadius row.inclination row.tilt row.dx row.dy) :
    ∃ sys ring, Notebook.ringSystem (.fin k) row = .ok sys ∧ sys.rings = [ring] ∧
      sys.inclination = row.inclination ∧ sys.tilt = row.tilt ∧
      CoversBetween (k / 2) ring (.npFloat .w64 ((XF.fin k).mul row.dx)) (.npFloat .w64 ((XF.fin k).mul row.dy)) := by
  obtain ⟨rms, rad', inc, til, dx, dy⟩ := row
  have hk : 0 < k := lt_trans (by norm_num) hk'
  simp only at h ⊢
  obtain ⟨R, i, t, x, y, rfl, rfl, rfl, rfl, rfl, hR0, hi0, hi, ht0, ht, hall⟩ := diskOfEclipse_fin h
  have hR : 1 / 10 ^ 16 < k * R := by
    have := diskOfEclipse_radius hR0 fun z => (hall z).2
    nlinarith
  refine ⟨_, _, C113_system k R i t rms _ _ hi0 hi ht0 ht hR, rfl, rfl, rfl, ?_⟩
  intro C codes color z
  simp only [XF.mul_fin]
  have hP : ∀ p : Pt, getPatch [p] codes ⟨.fin (1 / 10 ^ 16), .fin (k * R), .fin (9 / 10), .fin i, .fin t⟩
      (.npFloat .w64 (.fin (k * x))) (.npFloat .w64 (.fin (k * y))) (.str color) =
      .ok (some ⟨[outerVertex (k * R) (deg2rad i) (deg2rad t) (k * x, k * y) p],
        [innerVertex (1 / 10 ^ 16) (deg2rad i) (deg2rad t) (k * x, k * y) p], codes ++ codes, 1 - 9 / 10⟩) :=
    fun p => rfl
  have key : ∀ Q : ℝ → Prop, (∃ (p : Pt) (P : Patch C), Q (p.1 ^ 2 + p.2 ^ 2) ∧
      getPatch [p] codes ⟨.fin (1 / 10 ^ 16), .fin (k * R), .fin (9 / 10), .fin i, .fin t⟩
      (.npFloat .w64 (.fin (k * x))) (.npFloat .w64 (.fin (k * y))) (.str color) = .ok (some P) ∧
      P.outer = [(z, 0)]) ↔
      ∃ p : Pt, Q (p.1 ^ 2 + p.2 ^ 2) ∧ outerVertex R (deg2rad i) (deg2rad t) (x, y) p = (z / k, 0) := by
    intro Q
    constructor
    · rintro ⟨p, P, q1, q2, q3⟩
      rw [hP] at q2
      cases q2
      have q4 : outerVertex (k * R) (deg2rad i) (deg2rad t) (k * x, k * y) p = (z, 0) := by simpa using q3
      exact ⟨p, q1, (outerVertex_scale k R _ _ z hk (x, y) p).1 q4⟩
    · rintro ⟨p, q1, q2⟩
      refine ⟨p, _, q1, hP p, ?_⟩
      rw [(outerVertex_scale k R _ _ z hk (x, y) p).2 q2]
  obtain ⟨l1, l2⟩ := hall (z / k)
  have hz : |z / k| = |z| / k := by rw [abs_div, abs_of_pos hk]
  rw [hz, div_lt_iff₀ hk] at l1
  rw [hz, div_eq_iff hk.ne'] at l2
  have e : 1 / 2 * k = k / 2 := by ring
  rw [e] at l1 l2
  exact ⟨(key (· < 1)).trans l1, (key (· = 1)).trans l2⟩

/-- A disk of a grid that `C113_covers` is about, on the scale of an eclipse of seven days and a velocity of
two stellar diameters a day. -/
example : ∃ (row : Shallot.Solution ℝ) (sys : RSys ℝ) (ring : RingObj ℝ),
    Notebook.ringSystem (Notebook.scale (.fin 2) (.fin 7)) row = .ok sys ∧ sys.rings = [ring] ∧
      CoversBetween 7 ring (.npFloat .w64 ((Notebook.scale (.fin 2) (.fin 7)).mul row.dx))
        (.npFloat .w64 ((Notebook.scale (.fin 2) (.fin 7)).mul row.dy)) := by
  obtain ⟨s, pt, s', -, -, -, -, -, h⟩ := throwAway_covers
  obtain ⟨sys, ring, h1, h2, -, -, h3⟩ := C113_covers (2 * 7) (by norm_num)
    ⟨.nan, pt.diskRadius, pt.inclination, pt.tilt, pt.dx, pt.dy⟩ h
  refine ⟨_, sys, ring, h1, h2, ?_⟩
  rw [show (2 * 7 / 2 : ℝ) = 7 by norm_num] at h3
  exact h3

section
variable (minX maxX numX minY maxY numY maxRf numRf : PyVal ℝ) (g : GridParams ℝ)
    (hg : GridParams.new minX maxX numX minY maxY numY maxRf numRf = .ok g) (a b c d m : ℝ)
    (ha : IsNumber false minX (.fin a)) (hb : IsNumber false maxX (.fin b))
    (hc : IsNumber false minY (.fin c)) (hd : IsNumber false maxY (.fin d))
    (hm : IsNumber false maxRf (.fin m))
    (hext : g.extendable = true → 2 ≤ g.sliceShape.1 ∧ 2 ≤ g.sliceShape.2) (v k : PyVal ℝ)
    (s : Shallot ℝ) (g' : GridParams ℝ) (h : Shallot.new v k g = (.ok s, g'))
include hg ha hb hc hd hm hext h

/-- **C113** Whatever has been called on the grid before `extract_solutions`: the ring systems that the notebooks
make from the solutions, sorted or not, cover the path of the star between the dashed lines. -/
theorem C113_solutions (ops : List (GridOp ℝ)) (num : PyVal ℝ) (rows : List (Shallot.Solution ℝ))
    (s' : Shallot ℝ) (hrows : Shallot.extractSolutions num (runGrid ops s) = (.ok rows, s')) (mask : List ℕ)
    (row : Shallot.Solution ℝ) (hrow : row ∈ Notebook.reorder mask rows)
    (h1 : row.diskRadius ≠ .nan) (h2 : row.inclination ≠ .nan) (h3 : row.tilt ≠ .nan) (velocity duration : ℝ)
    (hs : 2 / 10 ^ 16 < velocity * duration) :
    ∃ sys ring, Notebook.ringSystem (Notebook.scale (.fin velocity) (.fin duration)) row = .ok sys ∧
      sys.rings = [ring] ∧
      CoversBetween (velocity * duration / 2) ring
        (.npFloat .w64 ((Notebook.scale (.fin velocity) (.fin duration)).mul row.dx))
        (.npFloat .w64 ((Notebook.scale (.fin velocity) (.fin duration)).mul row.dy)) := by
  have hmem : row ∈ rows := by
    obtain ⟨i, -, hi⟩ := List.mem_filterMap.1 hrow
    exact List.mem_of_getElem? hi
  have hdisk := C91_solution _ _ _ _ _ _ _ _ g hg a b c d m ha hb hc hd hm hext v k s g' h ops num rows s' hrows row
    hmem h1 h2 h3
  obtain ⟨sys, ring, e1, e2, -, -, e3⟩ := C113_covers (velocity * duration) hs row hdisk
  exact ⟨sys, ring, e1, e2, e3⟩

end

/-! ## Sorting the solutions -/

/-- What `np.argsort` promises: every index once, in an order in which no key is followed by a smaller one, and
NaN by nothing but NaN. -/
def Spec.Argsort (keys : List (XF ℝ)) (mask : List ℕ) : Prop :=
  mask.Perm (List.range keys.length) ∧
    mask.Pairwise fun i j => ∀ a b, keys[i]? = some a → keys[j]? = some b → ¬ Less b a ∧ (a = .nan → b = .nan)

theorem filterMap_range {α : Type} (l : List α) : (List.range l.length).filterMap (l[·]?) = l := by
  induction l using List.reverseRecOn with
  | nil => rfl
  | append_singleton l a ih =>
    rw [List.length_append, List.length_singleton, List.range_succ, List.filterMap_append]
    have : (List.range l.length).filterMap ((l ++ [a])[·]?) = (List.range l.length).filterMap (l[·]?) := by
      refine List.filterMap_congr fun i hi => ?_
      rw [List.getElem?_append_left (List.mem_range.1 hi)]
    rw [this, ih]
    simp

/-- **C113** Sorting by the disk radius keeps the numbers of a solution together: the sorted rows are the rows,
in the order of their radii. -/
theorem C113_sorted (rows : List (Shallot.Solution ℝ)) (mask : List ℕ)
    (h : Argsort (rows.map (·.diskRadius)) mask) :
    (Notebook.reorder mask rows).Perm rows ∧
      (Notebook.reorder mask rows).Pairwise (fun r q => ¬ Less q.diskRadius r.diskRadius) := by
  obtain ⟨h1, h2⟩ := h
  rw [List.length_map] at h1
  constructor
  · unfold Notebook.reorder
    refine (h1.filterMap _).trans ?_
    rw [filterMap_range]
  · unfold Notebook.reorder
    rw [List.pairwise_filterMap]
    refine h2.imp ?_
    intro i j hij r hr q hq
    exact (hij _ _ (by simp [hr]) (by simp [hq])).1

example : Argsort ([⟨.fin 0, .fin 2, .fin 0, .fin 0, .fin 0, .fin 1⟩,
    ⟨.fin 1, .fin 1, .fin 0, .fin 0, .fin 0, .fin 1⟩].map (Shallot.Solution.diskRadius (K := ℝ))) [1, 0] := by
  refine ⟨List.Perm.swap 0 1 [], List.pairwise_pair.2 ?_⟩
  intro a b ha hb
  simp only [List.map_cons, List.map_nil, List.getElem?_cons_succ, List.getElem?_cons_zero, Option.some.injEq] at ha hb
  subst ha hb
  refine ⟨?_, by simp⟩
  rw [less_iff]
  norm_num

/-! ## The choice of the solutions that are drawn -/

theorem select_spec (tested : List (XF ℝ)) (rows : List (Shallot.Solution ℝ)) (ks : List ℕ)
    (h1 : ∀ k ∈ ks, k < tested.length) (h2 : ∀ k ∈ ks, k < rows.length) :
    ∃ out, Notebook.select tested rows ks = .ok out ∧
      (out.map Prod.fst).Sublist ks ∧
      ∀ k row, (k, row) ∈ out ↔ k ∈ ks ∧ rows[k]? = some row ∧ ∃ y, tested[k]? = some y ∧ ¬ Less (.fin 0) y := by
  induction ks with
  | nil => exact ⟨[], rfl, List.Sublist.refl _, by simp⟩
  | cons k ks ih =>
    obtain ⟨out, e, hs, hall⟩ := ih (fun j hj => h1 j (List.mem_cons_of_mem _ hj))
      (fun j hj => h2 j (List.mem_cons_of_mem _ hj))
    obtain ⟨y, hy⟩ : ∃ y, tested[k]? = some y := ⟨_, List.getElem?_eq_getElem (h1 k List.mem_cons_self)⟩
    obtain ⟨row, hrow⟩ : ∃ row, rows[k]? = some row := ⟨_, List.getElem?_eq_getElem (h2 k List.mem_cons_self)⟩
    unfold Notebook.select
    simp only [hy]
    by_cases hl : XF.lt (.fin 0) y = true
    · rw [if_pos hl]
      refine ⟨out, e, hs.cons _, fun j row' => ?_⟩
      rw [hall]
      constructor
      · rintro ⟨a, b⟩; exact ⟨List.mem_cons_of_mem _ a, b⟩
      · rintro ⟨a, b, y', c, d⟩
        rcases List.mem_cons.1 a with rfl | a
        · rw [hy] at c; cases c
          exact absurd ((less_iff _ _).2 hl) d
        · exact ⟨a, b, y', c, d⟩
    · rw [if_neg hl]
      simp only [hrow, e, bind, Except.bind]
      refine ⟨_, rfl, hs.cons_cons k, fun j row' => ?_⟩
      rw [List.mem_cons, hall, Prod.mk.injEq]
      constructor
      · rintro (⟨rfl, rfl⟩ | ⟨a, b⟩)
        · exact ⟨List.mem_cons_self, hrow, y, hy, fun hh => hl ((less_iff _ _).1 hh)⟩
        · exact ⟨List.mem_cons_of_mem _ a, b⟩
      · rintro ⟨a, b, c⟩
        rcases List.mem_cons.1 a with rfl | a
        · left; rw [hrow] at b; cases b; exact ⟨rfl, rfl⟩
        · exact Or.inr ⟨a, b, c⟩

theorem select_short (tested : List (XF ℝ)) (rows : List (Shallot.Solution ℝ)) (ks : List ℕ) (k : ℕ) (hk : k ∈ ks)
    (h : tested.length ≤ k) : Notebook.select tested rows ks = .error .indexError := by
  induction ks with
  | nil => cases hk
  | cons j ks ih =>
    unfold Notebook.select
    cases hy : tested[j]? with
    | none => rfl
    | some y =>
      have hne : k ≠ j := by
        rintro rfl
        rw [List.getElem?_eq_none h] at hy
        cases hy
      have ih' := ih ((List.mem_cons.1 hk).resolve_left hne)
      simp only
      split_ifs
      · exact ih'
      · cases rows[j]? with
        | none => rfl
        | some row => simp only [ih', bind, Except.bind]

/-- **C113** The loops draw, of the first twenty solutions, those whose `dy` is not positive, each once and in
order; with fewer than twenty solutions they raise an `IndexError`. -/
theorem C113_drawn (rows : List (Shallot.Solution ℝ)) :
    (20 ≤ rows.length → ∃ out, Notebook.drawn rows = .ok out ∧ (out.map Prod.fst).Pairwise (· < ·) ∧
      ∀ k row, (k, row) ∈ out ↔ k < 20 ∧ rows[k]? = some row ∧ ¬ Less (.fin 0) row.dy) ∧
    (rows.length < 20 → Notebook.drawn rows = .error .indexError) := by
  constructor
  · intro h
    obtain ⟨out, e, hs, hall⟩ := select_spec (rows.map (·.dy)) rows (List.range 20)
      (fun k hk => by rw [List.length_map]; exact (List.mem_range.1 hk).trans_le h)
      (fun k hk => (List.mem_range.1 hk).trans_le h)
    refine ⟨out, e, List.pairwise_lt_range.sublist hs, fun k row => ?_⟩
    rw [hall, List.mem_range]
    constructor
    · rintro ⟨a, b, y, c, d⟩
      rw [List.getElem?_map, b] at c
      cases c
      exact ⟨a, b, d⟩
    · rintro ⟨a, b, d⟩
      exact ⟨a, b, _, by rw [List.getElem?_map, b]; rfl, d⟩
  · intro h
    exact select_short _ _ _ 19 (by simp) (by rw [List.length_map]; omega)

/-- **C113** The curves of the second analysis are drawn for other solutions than the ring systems of it: which
are left out is decided by the solutions of the first analysis.  Here every curve that is drawn belongs to a
solution above the path of the star, none of which would be chosen, and the only one that should be drawn is not. -/
theorem C113_false : ∃ first second : List (Shallot.Solution ℝ), first.length = 20 ∧ second.length = 20 ∧
    ∃ out out', Notebook.drawnSecond first second = .ok out ∧ Notebook.drawn second = .ok out' ∧
      out.length = 19 ∧ (∀ p ∈ out, Less (.fin 0) p.2.dy) ∧ out'.length = 1 ∧ ∀ p ∈ out', p ∉ out := by
  let up : Shallot.Solution ℝ := ⟨.fin 0, .fin 1, .fin 0, .fin 0, .fin 0, .fin 1⟩
  let down : Shallot.Solution ℝ := ⟨.fin 0, .fin 1, .fin 0, .fin 0, .fin 0, .fin (-1)⟩
  have hu : XF.lt (.fin 0) up.dy = true := by simp [up]
  have hd : XF.lt (.fin 0) down.dy = false := by simp [down]
  refine ⟨up :: List.replicate 19 down, down :: List.replicate 19 up, rfl, rfl,
    (List.range 19).map fun k => (k + 1, up), [(0, down)], ?_, ?_, rfl, ?_, rfl, ?_⟩
  · simp only [Notebook.drawnSecond, List.replicate, List.map_cons, List.map_nil, List.range, List.range.loop,
      Notebook.select, List.getElem?_cons_zero, List.getElem?_cons_succ, hu, hd, if_true, Bool.false_eq_true, if_false,
      bind, Except.bind]
  · simp only [Notebook.drawn, List.replicate, List.map_cons, List.map_nil, List.range, List.range.loop,
      Notebook.select, List.getElem?_cons_zero, List.getElem?_cons_succ, hu, hd, if_true, Bool.false_eq_true, if_false,
      bind, Except.bind]
  · intro p hp
    obtain ⟨k, -, rfl⟩ := List.mem_map.1 hp
    exact (less_iff _ _).2 hu
  · intro p hp hq
    rw [List.mem_singleton] at hp
    subst hp
    obtain ⟨k, -, hk⟩ := List.mem_map.1 hq
    simp at hk

end Beyonce
