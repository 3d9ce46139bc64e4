import Verif.PatchRounded
import Verif.Props.RingPatch
import Verif.Props.DoubleLib

/-!
# Property C125: the drawn rings in floating point
-/

set_option linter.unusedSectionVars false

namespace Beyonce
open Spec Real

/-! ## Exact arithmetic is the model without rounding -/

theorem patch_exact {C : Type} (fused : Bool) (verts : List Pt) (codes : List C) (r : RingObj ℝ)
    (x y color : PyVal ℝ) :
    PatchRounded.getPatch .exact fused verts codes r x y color = getPatch verts codes r x y color := by
  have hd : ∀ z, PatchRounded.deg2rad .exact z = deg2rad z := fun z => rfl
  have hdot : ∀ a b c d, PatchRounded.dot .exact fused a b c d = a * c + b * d := fun a b c d => by
    cases fused <;> rfl
  have ho : ∀ R i p c, PatchRounded.vertex .exact fused 1 R i p c = outerVertex R i p c := fun R i p c => by
    funext q
    simp only [PatchRounded.vertex, hdot, outerVertex, rotateRow]
    rfl
  have hi : ∀ R i p c, PatchRounded.vertex .exact fused (-1) R i p c = innerVertex R i p c := fun R i p c => by
    funext q
    simp only [PatchRounded.vertex, hdot, innerVertex, rotateRow]
    rfl
  have hp : ∀ a b, PatchRounded.patchOf .exact fused verts codes r a b = patchOf verts codes r a b := by
    intro a b
    unfold PatchRounded.patchOf patchOf
    simp only [hd, ho, hi]
    rfl
  unfold PatchRounded.getPatch getPatch
  simp only [hp]

/-! ## Absolute errors -/

/-- `x` is `y` up to an error of `e`. -/
def Spec.AbsNear (e x y : ℝ) : Prop := |x - y| ≤ e

theorem absNear_bound {e x y M : ℝ} (h : AbsNear e x y) (hM : |y| ≤ M) : |x| ≤ M + e := by
  have h1 : |x - y| ≤ e := h
  have := abs_sub_abs_le_abs_sub x y
  linarith

theorem absNear_rnd {f : ℝ → ℝ} {u e x y M : ℝ} (hr : Rounds f u) (hu : 0 ≤ u) (h : AbsNear e x y) (hM : |y| ≤ M) :
    AbsNear (e + u * (M + e)) (f x) y := by
  have h1 := hr x
  have h2 := mul_le_mul_of_nonneg_left (absNear_bound h hM) hu
  have h3 : |x - y| ≤ e := h
  have := abs_sub_le (f x) x y
  unfold AbsNear
  linarith

theorem absNear_mul {e f x y z w M N : ℝ} (h : AbsNear e x y) (h' : AbsNear f z w) (hM : |y| ≤ M) (hN : |w| ≤ N) :
    AbsNear ((M + e) * f + N * e) (x * z) (y * w) := by
  have h1 : |x - y| ≤ e := h
  have h2 : |z - w| ≤ f := h'
  have h3 := absNear_bound h hM
  unfold AbsNear
  rw [show x * z - y * w = x * (z - w) + w * (x - y) by ring]
  refine (abs_add_le _ _).trans ?_
  rw [abs_mul, abs_mul]
  have a := mul_le_mul h3 h2 (abs_nonneg _) ((abs_nonneg x).trans h3)
  have b := mul_le_mul hN h1 (abs_nonneg _) ((abs_nonneg w).trans hN)
  linarith

theorem absNear_add {e f x y z w : ℝ} (h : AbsNear e x y) (h' : AbsNear f z w) : AbsNear (e + f) (x + z) (y + w) := by
  have h1 : |x - y| ≤ e := h
  have h2 : |z - w| ≤ f := h'
  unfold AbsNear
  rw [show x + z - (y + w) = (x - y) + (z - w) by ring]
  exact (abs_add_le _ _).trans (by linarith)

theorem Spec.AbsNear.mono {e f x y : ℝ} (h : AbsNear e x y) (hf : e ≤ f) : AbsNear f x y := le_trans h hf

/-- The angles in radians. -/
theorem angle_near {L : FloatLib ℝ} {u : ℝ} (hL : Accurate L u) (hu1 : 1000 * u ≤ 1) (x : ℝ) :
    RelNear (5 * u) (PatchRounded.deg2rad L x) (deg2rad x) := by
  have hu := hL.nonneg
  have h1 : RelNear (1 * u) (L.pi / 180) (π / 180) := by
    have := hL.pi.mul_right (1 / 180)
    rw [one_mul, div_eq_mul_one_div, div_eq_mul_one_div π]
    exact this
  have h2 : RelNear (3 * u) _ (π / 180) := h1.rnd hL.rnd hu (by linarith) (by norm_num)
  have h3 : RelNear (5 * u) (L.rnd _) (x * (π / 180)) := (h2.mul_left x).rnd hL.rnd hu (by linarith) (by norm_num)
  exact h3

theorem cosine_near {L : FloatLib ℝ} {u a b m : ℝ} (hL : Accurate L u) (h : RelNear (5 * u) a b) (hb : |b| ≤ m) :
    AbsNear ((5 * m + 1) * u) (L.cos a) (cos b) := by
  have hu := hL.nonneg
  have h1 : |L.cos a - cos a| ≤ u * |cos a| := hL.cos a
  have h2 := mul_le_mul_of_nonneg_left (abs_cos_le_one a) hu
  have h3 := cos_near a b
  have h4 : |a - b| ≤ 5 * u * |b| := h
  have h5 := mul_le_mul_of_nonneg_left hb (show 0 ≤ 5 * u by linarith)
  have := abs_sub_le (L.cos a) (cos a) (cos b)
  unfold AbsNear
  linarith

theorem sine_near {L : FloatLib ℝ} {u a b m : ℝ} (hL : Accurate L u) (h : RelNear (5 * u) a b) (hb : |b| ≤ m) :
    AbsNear ((5 * m + 1) * u) (L.sin a) (sin b) := by
  have hu := hL.nonneg
  have h1 : |L.sin a - sin a| ≤ u * |sin a| := hL.sin a
  have h2 := mul_le_mul_of_nonneg_left (abs_sin_le_one a) hu
  have h3 := sin_near a b
  have h4 : |a - b| ≤ 5 * u * |b| := h
  have h5 := mul_le_mul_of_nonneg_left hb (show 0 ≤ 5 * u by linarith)
  have := abs_sub_le (L.sin a) (sin a) (sin b)
  unfold AbsNear
  linarith

theorem deg2rad_bound {x m : ℝ} (h : |x| ≤ m) : |deg2rad x| ≤ m * (π / 180) := by
  unfold deg2rad
  rw [abs_mul, abs_of_pos (by positivity : 0 < π / 180)]
  exact mul_le_mul_of_nonneg_right h (by positivity)

/-- One element of the dot product. -/
theorem dot_near {L : FloatLib ℝ} {u : ℝ} (hL : Accurate L u) (hu1 : 1000 * u ≤ 1) (fused : Bool)
    {a b c d A B C D R : ℝ} (hR : 0 ≤ R) (ha : AbsNear (3 * u * R) a A) (hb : AbsNear (13 * u * R) b B)
    (hc : AbsNear (17 * u) c C) (hd : AbsNear (17 * u) d D) (hA : |A| ≤ R) (hB : |B| ≤ R) (hC : |C| ≤ 1)
    (hD : |D| ≤ 1) : AbsNear (58 * u * R) (PatchRounded.dot L fused a b c d) (A * C + B * D) := by
  have hu := hL.nonneg
  have huR : 0 ≤ u * R := mul_nonneg hu hR
  have huR2 : u * (u * R) ≤ 1 / 1000 * (u * R) := mul_le_mul_of_nonneg_right (by linarith) huR
  have huR3 : 0 ≤ u * (u * R) := mul_nonneg hu huR
  have p1 : AbsNear (20.1 * u * R) (a * c) (A * C) := (absNear_mul ha hc hA hC).mono (by nlinarith)
  have p2 : AbsNear (30.3 * u * R) (b * d) (B * D) := (absNear_mul hb hd hB hD).mono (by nlinarith)
  have hAC : |A * C| ≤ R := by
    rw [abs_mul]
    exact (mul_le_mul hA hC (abs_nonneg _) hR).trans (by linarith)
  have hBD : |B * D| ≤ R := by
    rw [abs_mul]
    exact (mul_le_mul hB hD (abs_nonneg _) hR).trans (by linarith)
  have q1 : AbsNear (21.2 * u * R) (L.rnd (a * c)) (A * C) := (absNear_rnd hL.rnd hu p1 hAC).mono (by nlinarith)
  have q2 : AbsNear (31.4 * u * R) (L.rnd (b * d)) (B * D) := (absNear_rnd hL.rnd hu p2 hBD).mono (by nlinarith)
  have hS : |A * C + B * D| ≤ 2 * R := (abs_add_le _ _).trans (by linarith)
  unfold PatchRounded.dot
  cases fused
  · rw [if_neg Bool.false_ne_true]
    exact (absNear_rnd hL.rnd hu (absNear_add q1 q2) hS).mono (by nlinarith)
  · rw [if_pos rfl]
    exact (absNear_rnd hL.rnd hu (absNear_add q1 p2) hS).mono (by nlinarith)

/-- The error of a coordinate of a ring of radius `R` whose centre has the coordinate `c`. -/
noncomputable def Spec.blur (u R c : ℝ) : ℝ := 62 * u * R + u * |c|

/-- A computed vertex. -/
theorem drawn_near {L : FloatLib ℝ} {u : ℝ} (hL : Accurate L u) (hu1 : 1000 * u ≤ 1) (fused : Bool)
    (sign R i phi : ℝ) (centre p : Pt) (hs : |sign| = 1) (hR : 0 ≤ R) (hi : |i| ≤ 90) (hphi : |phi| ≤ 180)
    (h1 : |p.1| ≤ 1) (h2 : |p.2| ≤ 1) (q : Pt)
    (hq : q = (centre.1 + (rotateRow (deg2rad phi) (R * p.1 * sign, R * p.2 * cos (deg2rad i))).1,
      centre.2 + (rotateRow (deg2rad phi) (R * p.1 * sign, R * p.2 * cos (deg2rad i))).2)) :
    AbsNear (blur u R centre.1)
      (PatchRounded.vertex L fused sign R (PatchRounded.deg2rad L i) (PatchRounded.deg2rad L phi) centre p).1 q.1 ∧
    AbsNear (blur u R centre.2)
      (PatchRounded.vertex L fused sign R (PatchRounded.deg2rad L i) (PatchRounded.deg2rad L phi) centre p).2 q.2 := by
  have hu := hL.nonneg
  have huR : 0 ≤ u * R := mul_nonneg hu hR
  have huR2 : u * (u * R) ≤ 1 / 1000 * (u * R) := mul_le_mul_of_nonneg_right (by linarith) huR
  have huR3 : 0 ≤ u * (u * R) := mul_nonneg hu huR
  have hpi := pi_lt_d2
  have a1 := deg2rad_bound hi
  have a2 := deg2rad_bound hphi
  have c1 : AbsNear (9 * u) _ _ := (cosine_near hL (angle_near hL hu1 i) (m := 1.58) (by linarith)).mono (by linarith)
  have c2 : AbsNear (17 * u) _ _ := (cosine_near hL (angle_near hL hu1 phi) (m := 3.16) (by linarith)).mono (by linarith)
  have c3 : AbsNear (17 * u) _ _ := (sine_near hL (angle_near hL hu1 phi) (m := 3.16) (by linarith)).mono (by linarith)
  have hx : |R * p.1| ≤ R := by
    rw [abs_mul, abs_of_nonneg hR]
    exact (mul_le_mul_of_nonneg_left h1 hR).trans (by linarith)
  have hy : |R * p.2| ≤ R := by
    rw [abs_mul, abs_of_nonneg hR]
    exact (mul_le_mul_of_nonneg_left h2 hR).trans (by linarith)
  have x1 : AbsNear (u * R) (L.rnd (R * p.1)) (R * p.1) :=
    le_trans (hL.rnd _) (mul_le_mul_of_nonneg_left hx hu)
  have y1 : AbsNear (u * R) (L.rnd (R * p.2)) (R * p.2) :=
    le_trans (hL.rnd _) (mul_le_mul_of_nonneg_left hy hu)
  have hA : |R * p.1 * sign| ≤ R := by rw [abs_mul, hs, mul_one]; exact hx
  have hB : |R * p.2 * cos (deg2rad i)| ≤ R := by
    rw [abs_mul]
    exact (mul_le_mul hy (abs_cos_le_one _) (abs_nonneg _) hR).trans (by linarith)
  have x2 : AbsNear (u * R) (L.rnd (R * p.1) * sign) (R * p.1 * sign) := by
    unfold AbsNear
    rw [← sub_mul, abs_mul, hs, mul_one]
    exact x1
  have x3 : AbsNear (3 * u * R) _ _ := (absNear_rnd hL.rnd hu x2 hA).mono (by nlinarith)
  have y2 : AbsNear (10.1 * u * R) _ _ := (absNear_mul y1 c1 hy (abs_cos_le_one _)).mono (by nlinarith)
  have y3 : AbsNear (13 * u * R) _ _ := (absNear_rnd hL.rnd hu y2 hB).mono (by nlinarith)
  have c4 : AbsNear (17 * u) (-L.cos (PatchRounded.deg2rad L phi)) (-cos (deg2rad phi)) := by
    have : |L.cos (PatchRounded.deg2rad L phi) - cos (deg2rad phi)| ≤ 17 * u := c2
    unfold AbsNear
    rw [show -L.cos (PatchRounded.deg2rad L phi) - -cos (deg2rad phi) =
      -(L.cos (PatchRounded.deg2rad L phi) - cos (deg2rad phi)) by ring, abs_neg]
    exact this
  have d1 := dot_near hL hu1 fused hR x3 y3 c2 c3 hA hB (abs_cos_le_one _) (abs_sin_le_one _)
  have d2 := dot_near hL hu1 fused hR x3 y3 c3 c4 hA hB (abs_sin_le_one _) (by rw [abs_neg]; exact abs_cos_le_one _)
  have bound : ∀ s t : ℝ, |s| ≤ 1 → |t| ≤ 1 →
      |R * p.1 * sign * s + R * p.2 * cos (deg2rad i) * t| ≤ 2 * R := by
    intro s t hs' ht'
    refine (abs_add_le _ _).trans ?_
    rw [abs_mul, abs_mul _ t]
    have k1 := mul_le_mul hA hs' (abs_nonneg _) hR
    have k2 := mul_le_mul hB ht' (abs_nonneg _) hR
    linarith
  subst hq
  unfold PatchRounded.vertex rotateRow blur
  simp only
  constructor
  · have k := bound _ _ (abs_cos_le_one (deg2rad phi)) (abs_sin_le_one (deg2rad phi))
    have e : AbsNear (0 + 58 * u * R) (centre.1 + _) (centre.1 + _) :=
      absNear_add (by unfold AbsNear; rw [sub_self, abs_zero]) d1
    refine (absNear_rnd hL.rnd hu e ((abs_add_le _ _).trans (add_le_add_right k _))).mono ?_
    nlinarith
  · have k := bound _ _ (abs_sin_le_one (deg2rad phi)) (by rw [abs_neg]; exact abs_cos_le_one (deg2rad phi))
    have e : AbsNear (0 + 58 * u * R) (centre.2 + _) (centre.2 + _) :=
      absNear_add (by unfold AbsNear; rw [sub_self, abs_zero]) d2
    refine (absNear_rnd hL.rnd hu e ((abs_add_le _ _).trans (add_le_add_right k _))).mono ?_
    nlinarith

/-! ## What is drawn -/

/-- `q'` is drawn for the point `q` of a ring of radius `R` and the given centre. -/
def Spec.DrawnFor (u R : ℝ) (centre q' q : Pt) : Prop :=
  |q'.1 - q.1| ≤ blur u R centre.1 ∧ |q'.2 - q.2| ≤ blur u R centre.2

/-- The numbers that `Ring` accepts for a ring, apart from the order of the radii. -/
structure Spec.RingNumbers (ri ro t i phi : ℝ) : Prop where
  inner : 0 ≤ ri
  outer : 0 ≤ ro
  transmission : 0 ≤ t ∧ t ≤ 1
  inclination : 0 ≤ i ∧ i ≤ 90
  tilt : -180 ≤ phi ∧ phi ≤ 180

/-- **C125** In floating point `get_patch` draws the same vertices, in the same order, each coordinate up to
`62 u` radii and `u` times the shift: for every path in the unit square, with or without fused additions.  The
opacity is one minus the transmission up to a relative error of `u`, and it is between 0 and 1. -/
theorem C125_vertices {C : Type} (L : FloatLib ℝ) (u : ℝ) (hL : Accurate L u) (hu1 : 1000 * u ≤ 1) (fused : Bool)
    (verts : List Pt) (codes : List C) (r : RingObj ℝ) {ri ro t i phi : ℝ} (hr : IsRing r ri ro t i phi)
    (ha : RingNumbers ri ro t i phi) (hv : ∀ p ∈ verts, |p.1| ≤ 1 ∧ |p.2| ≤ 1) (x y : ℝ) (color : String) :
    ∃ P P', getPatch verts codes r (.float (.fin x)) (.float (.fin y)) (.str color) = .ok (some P) ∧
      PatchRounded.getPatch L fused verts codes r (.float (.fin x)) (.float (.fin y)) (.str color) = .ok (some P') ∧
      List.Forall₂ (DrawnFor u ro (x, y)) P'.outer P.outer ∧ List.Forall₂ (DrawnFor u ri (x, y)) P'.inner P.inner ∧
      P'.codes = P.codes ∧ |P'.alpha - (1 - t)| ≤ u * (1 - t) ∧ 0 ≤ P'.alpha ∧ P'.alpha ≤ 1 := by
  have hu := hL.nonneg
  obtain ⟨P, e, -, -, -, hc⟩ := C07_patch_exists verts codes r hr x y color
  obtain ⟨ho, hi⟩ := patch_fields hr e
  have hn : ∀ z : ℝ, number (.float (.fin z)) = .ok (PyVal.float (.fin z)) := fun z => rfl
  have e' : PatchRounded.getPatch L fused verts codes r (.float (.fin x)) (.float (.fin y)) (.str color) = .ok (some
      { outer := verts.map (PatchRounded.vertex L fused 1 ro (PatchRounded.deg2rad L i) (PatchRounded.deg2rad L phi) (x, y))
        inner := verts.map (PatchRounded.vertex L fused (-1) ri (PatchRounded.deg2rad L i) (PatchRounded.deg2rad L phi) (x, y))
        codes := codes ++ codes
        alpha := L.rnd (1 - t) }) := by
    unfold PatchRounded.getPatch
    rw [hn, hn]
    simp only [bind, Except.bind, string, classObject, isinstance, if_true, PatchRounded.patchOf, hr.inner,
      hr.outer, hr.transmission, hr.inclination, hr.tilt, PyVal.num_float]
  have hi90 : |i| ≤ 90 := abs_le.2 ⟨by linarith [ha.inclination.1], ha.inclination.2⟩
  have hphi : |phi| ≤ 180 := abs_le.2 ha.tilt
  refine ⟨P, _, e, e', ?_, ?_, hc.symm, ?_, ?_, ?_⟩
  · rw [ho]
    simp only [List.forall₂_map_left_iff, List.forall₂_map_right_iff, List.forall₂_same]
    intro p hp
    obtain ⟨h1, h2⟩ := hv p hp
    exact drawn_near hL hu1 fused 1 ro i phi (x, y) p (by norm_num) ha.outer hi90 hphi h1 h2 _ rfl
  · rw [hi]
    simp only [List.forall₂_map_left_iff, List.forall₂_map_right_iff, List.forall₂_same]
    intro p hp
    obtain ⟨h1, h2⟩ := hv p hp
    exact drawn_near hL hu1 fused (-1) ri i phi (x, y) p (by norm_num) ha.inner hi90 hphi h1 h2 _ rfl
  · have := hL.rnd (1 - t)
    rwa [abs_of_nonneg (show 0 ≤ 1 - t by linarith [ha.transmission.2])] at this
  · have h0 : L.rnd 0 = 0 := by
      have := hL.rnd 0
      rw [abs_zero, mul_zero, sub_zero] at this
      exact abs_eq_zero.1 (le_antisymm this (abs_nonneg _))
    have := hL.mono (show (0 : ℝ) ≤ 1 - t by linarith [ha.transmission.2])
    rwa [h0] at this
  · have := hL.mono (show 1 - t ≤ 1 by linarith [ha.transmission.1])
    rwa [hL.one] at this

/-- The point at `s` of the Bézier segment that begins with the `k`-th vertex of a path. -/
noncomputable def Spec.stretch (l : List Pt) (k : ℕ) (s : ℝ) : Option Pt := do
  let a ← l[k]?
  let b ← l[k + 1]?
  let c ← l[k + 2]?
  let d ← l[k + 3]?
  some (bezier a b c d s)

theorem bezier_near {u R s : ℝ} {centre a b c d a' b' c' d' : Pt} (ha : DrawnFor u R centre a' a)
    (hb : DrawnFor u R centre b' b) (hc : DrawnFor u R centre c' c) (hd : DrawnFor u R centre d' d) (h0 : 0 ≤ s)
    (h1 : s ≤ 1) : DrawnFor u R centre (bezier a' b' c' d' s) (bezier a b c d s) := by
  have key : ∀ {x0 x1 x2 x3 y0 y1 y2 y3 e : ℝ}, |y0 - x0| ≤ e → |y1 - x1| ≤ e → |y2 - x2| ≤ e → |y3 - x3| ≤ e →
      |((1-s)^3 * y0 + 3*(1-s)^2*s * y1 + 3*(1-s)*s^2 * y2 + s^3 * y3) -
        ((1-s)^3 * x0 + 3*(1-s)^2*s * x1 + 3*(1-s)*s^2 * x2 + s^3 * x3)| ≤ e := by
    intro x0 x1 x2 x3 y0 y1 y2 y3 e k0 k1 k2 k3
    have w : 0 ≤ 1 - s := by linarith
    rw [abs_le] at k0 k1 k2 k3 ⊢
    have w0 : 0 ≤ (1-s)^3 := by positivity
    have w1 : 0 ≤ 3*(1-s)^2*s := by positivity
    have w2 : 0 ≤ 3*(1-s)*s^2 := by positivity
    have w3 : 0 ≤ s^3 := by positivity
    have sum : e = (1-s)^3 * e + 3*(1-s)^2*s * e + 3*(1-s)*s^2 * e + s^3 * e := by ring
    have m0 := mul_le_mul_of_nonneg_left k0.2 w0
    have m1 := mul_le_mul_of_nonneg_left k1.2 w1
    have m2 := mul_le_mul_of_nonneg_left k2.2 w2
    have m3 := mul_le_mul_of_nonneg_left k3.2 w3
    have n0 := mul_le_mul_of_nonneg_left k0.1 w0
    have n1 := mul_le_mul_of_nonneg_left k1.1 w1
    have n2 := mul_le_mul_of_nonneg_left k2.1 w2
    have n3 := mul_le_mul_of_nonneg_left k3.1 w3
    rw [mul_sub] at m0 m1 m2 m3 n0 n1 n2 n3
    rw [mul_neg] at n0 n1 n2 n3
    constructor <;> linarith
  exact ⟨key ha.1 hb.1 hc.1 hd.1, key ha.2 hb.2 hc.2 hd.2⟩

theorem forall₂_at {α β : Type} {R : α → β → Prop} {l : List α} {m : List β} (h : List.Forall₂ R l m) {k : ℕ} {b : β}
    (hb : m[k]? = some b) : ∃ a, l[k]? = some a ∧ R a b := by
  induction h generalizing k with
  | nil => cases hb
  | cons h0 _ ih =>
    cases k with
    | zero => exact ⟨_, rfl, by cases hb; exact h0⟩
    | succ k => exact ih hb

/-- **C125** The same holds of every point of the drawn curves: it is off by no more than the vertices are. -/
theorem C125_curves {C : Type} (L : FloatLib ℝ) (u : ℝ) (hL : Accurate L u) (hu1 : 1000 * u ≤ 1) (fused : Bool)
    (verts : List Pt) (codes : List C) (r : RingObj ℝ) {ri ro t i phi : ℝ} (hr : IsRing r ri ro t i phi)
    (ha : RingNumbers ri ro t i phi) (hv : ∀ p ∈ verts, |p.1| ≤ 1 ∧ |p.2| ≤ 1) (x y : ℝ) (color : String) (P P' : Patch C)
    (h : getPatch verts codes r (.float (.fin x)) (.float (.fin y)) (.str color) = .ok (some P))
    (h' : PatchRounded.getPatch L fused verts codes r (.float (.fin x)) (.float (.fin y)) (.str color) = .ok (some P'))
    (k : ℕ) (s : ℝ) (h0 : 0 ≤ s) (h1 : s ≤ 1) :
    (∀ q, stretch P.outer k s = some q → ∃ q', stretch P'.outer k s = some q' ∧ DrawnFor u ro (x, y) q' q) ∧
    (∀ q, stretch P.inner k s = some q → ∃ q', stretch P'.inner k s = some q' ∧ DrawnFor u ri (x, y) q' q) := by
  obtain ⟨Q, Q', e, e', ho, hi, -⟩ := C125_vertices L u hL hu1 fused verts codes r hr ha hv x y color
  rw [h] at e
  rw [h'] at e'
  cases e
  cases e'
  have key : ∀ {R : ℝ} {l' l : List Pt}, List.Forall₂ (DrawnFor u R (x, y)) l' l →
      ∀ q, stretch l k s = some q → ∃ q', stretch l' k s = some q' ∧ DrawnFor u R (x, y) q' q := by
    intro R l' l hf q hq
    unfold stretch at hq
    simp only [bind, Option.bind_eq_some_iff, Option.some.injEq] at hq
    obtain ⟨a, ea, b, eb, c, ec, d, ed, rfl⟩ := hq
    obtain ⟨a', ea', na⟩ := forall₂_at hf ea
    obtain ⟨b', eb', nb⟩ := forall₂_at hf eb
    obtain ⟨c', ec', nc⟩ := forall₂_at hf ec
    obtain ⟨d', ed', nd⟩ := forall₂_at hf ed
    exact ⟨_, by unfold stretch; rw [ea', eb', ec', ed']; rfl, bezier_near na nb nc nd h0 h1⟩
  exact ⟨key ho, key hi⟩

/-- **C125** A vertex on the unit circle is drawn next to the edge of the ring. -/
theorem C125_edges {C : Type} (L : FloatLib ℝ) (u : ℝ) (hL : Accurate L u) (hu1 : 1000 * u ≤ 1) (fused : Bool)
    (verts : List Pt) (codes : List C) (r : RingObj ℝ) {ri ro t i phi : ℝ} (hr : IsRing r ri ro t i phi)
    (ha : RingNumbers ri ro t i phi) (hv : ∀ p ∈ verts, |p.1| ≤ 1 ∧ |p.2| ≤ 1) (x y : ℝ) (color : String) (P' : Patch C)
    (h' : PatchRounded.getPatch L fused verts codes r (.float (.fin x)) (.float (.fin y)) (.str color) = .ok (some P'))
    (k : ℕ) (p : Pt) (hk : verts[k]? = some p) (hp : p.1 ^ 2 + p.2 ^ 2 = 1) :
    (∃ q', P'.outer[k]? = some q' ∧ ∃ q ∈ Ellipse (x, y) ro (ro * cos (i * π / 180)) (phi * π / 180),
      DrawnFor u ro (x, y) q' q) ∧
    (∃ q', P'.inner[k]? = some q' ∧ ∃ q ∈ Ellipse (x, y) ri (ri * cos (i * π / 180)) (phi * π / 180),
      DrawnFor u ri (x, y) q' q) := by
  obtain ⟨Q, Q', e, e', ho, hi, -⟩ := C125_vertices L u hL hu1 fused verts codes r hr ha hv x y color
  rw [h'] at e'
  cases e'
  obtain ⟨⟨q, hq, mq⟩, ⟨z, hz, mz⟩⟩ := C07_on_ellipse verts codes r hr x y (.str color) Q e k p hk hp
  obtain ⟨q', hq', nq⟩ := forall₂_at ho hq
  obtain ⟨z', hz', nz⟩ := forall₂_at hi hz
  exact ⟨⟨q', hq', q, mq, nq⟩, ⟨z', hz', z, mz, nz⟩⟩

/-- **C125** The drawn inner edge stays within the ring: it lies inside the outer ellipse wherever the ring is
wider than twice the two errors over the cosine of the inclination. -/
theorem C125_inside {C : Type} (L : FloatLib ℝ) (u : ℝ) (hL : Accurate L u) (hu1 : 1000 * u ≤ 1) (fused : Bool)
    (verts : List Pt) (codes : List C) (r : RingObj ℝ) {ri ro t i phi : ℝ} (hr : IsRing r ri ro t i phi)
    (ha : RingNumbers ri ro t i phi) (hv : ∀ p ∈ verts, |p.1| ≤ 1 ∧ |p.2| ≤ 1) (x y : ℝ) (color : String) (P' : Patch C)
    (h' : PatchRounded.getPatch L fused verts codes r (.float (.fin x)) (.float (.fin y)) (.str color) = .ok (some P'))
    (hc : 0 < cos (i * π / 180)) (hw : ri + (blur u ri x + blur u ri y) / cos (i * π / 180) < ro)
    (k : ℕ) (p q' : Pt) (hk : verts[k]? = some p) (hp : p.1 ^ 2 + p.2 ^ 2 = 1) (hq : P'.inner[k]? = some q') :
    (((q'.1 - x) * cos (phi * π / 180) + (q'.2 - y) * sin (phi * π / 180)) / ro) ^ 2 +
    (((q'.2 - y) * cos (phi * π / 180) - (q'.1 - x) * sin (phi * π / 180)) /
      (ro * cos (i * π / 180))) ^ 2 < 1 := by
  obtain ⟨-, ⟨z, hz, q, ⟨α, eq⟩, n1, n2⟩⟩ := C125_edges L u hL hu1 fused verts codes r hr ha hv x y color P' h' k p hk hp
  rw [hq] at hz
  cases hz
  have hri := ha.inner
  have hb : ∀ c, 0 ≤ blur u ri c := fun c => by
    have := hL.nonneg
    unfold blur
    positivity
  have hro : 0 < ro := by
    have := div_nonneg (add_nonneg (hb x) (hb y)) hc.le
    linarith
  have e := sin_sq_add_cos_sq (phi * π / 180)
  have e2 := sin_sq_add_cos_sq α
  simp only at n1 n2
  rw [eq] at n1 n2
  simp only at n1 n2
  generalize cos (phi * π / 180) = c at *
  generalize sin (phi * π / 180) = s at *
  have hK := cos_le_one (i * π / 180)
  generalize cos (i * π / 180) = κ at *
  obtain ⟨dx, hdx⟩ : ∃ dx, q'.1 = x + ri * cos α * c - ri * κ * sin α * s + dx := ⟨_, (add_sub_cancel _ _).symm⟩
  obtain ⟨dy, hdy⟩ : ∃ dy, q'.2 = y + ri * cos α * s + ri * κ * sin α * c + dy := ⟨_, (add_sub_cancel _ _).symm⟩
  rw [hdx, add_sub_cancel_left] at n1
  rw [hdy, add_sub_cancel_left] at n2
  have a1 : (q'.1 - x) * c + (q'.2 - y) * s = ri * cos α + (dx * c + dy * s) := by
    rw [hdx, hdy]; linear_combination (ri * cos α) * e
  have a2 : (q'.2 - y) * c - (q'.1 - x) * s = ri * κ * sin α + (dy * c - dx * s) := by
    rw [hdx, hdy]; linear_combination (ri * κ * sin α) * e
  rw [a1, a2]
  -- the norm of the ellipse
  have t1 : √((ri * cos α) ^ 2 + (ri * sin α) ^ 2) = ri := by
    rw [show (ri * cos α) ^ 2 + (ri * sin α) ^ 2 = ri ^ 2 by linear_combination ri ^ 2 * e2, sqrt_sq hri]
  have t2 : √((dx * c + dy * s) ^ 2 + ((dy * c - dx * s) / κ) ^ 2) ≤ (|dx| + |dy|) / κ := by
    refine sqrt_le_iff.2 ⟨by positivity, ?_⟩
    have m1 : (dx * c + dy * s) ^ 2 ≤ ((dx * c + dy * s) / κ) ^ 2 := by
      rw [div_pow, le_div_iff₀ (by positivity)]
      have : κ ^ 2 ≤ 1 := pow_le_one₀ hc.le hK
      nlinarith [sq_nonneg (dx * c + dy * s)]
    have m2 : ((dx * c + dy * s) / κ) ^ 2 + ((dy * c - dx * s) / κ) ^ 2 = (dx ^ 2 + dy ^ 2) / κ ^ 2 := by
      rw [div_pow, div_pow, ← add_div]
      congr 1
      linear_combination (dx ^ 2 + dy ^ 2) * e
    have m3 : (dx ^ 2 + dy ^ 2) / κ ^ 2 ≤ ((|dx| + |dy|) / κ) ^ 2 := by
      rw [div_pow]
      refine div_le_div_of_nonneg_right ?_ (by positivity)
      rw [← sq_abs dx, ← sq_abs dy]
      nlinarith [abs_nonneg dx, abs_nonneg dy]
    linarith
  have t3 : √((ri * cos α + (dx * c + dy * s)) ^ 2 + (ri * sin α + (dy * c - dx * s) / κ) ^ 2) ≤
      ri + (|dx| + |dy|) / κ := by
    have := norm2_near (ri * cos α + (dx * c + dy * s), ri * sin α + (dy * c - dx * s) / κ) (0, 0)
    have tri : √((ri * cos α + (dx * c + dy * s)) ^ 2 + (ri * sin α + (dy * c - dx * s) / κ) ^ 2) ≤
        √((ri * cos α) ^ 2 + (ri * sin α) ^ 2) + √((dx * c + dy * s) ^ 2 + ((dy * c - dx * s) / κ) ^ 2) := by
      have := norm_add_le (⟨ri * cos α, ri * sin α⟩ : ℂ) ⟨dx * c + dy * s, (dy * c - dx * s) / κ⟩
      simp only [Complex.norm_eq_sqrt_sq_add_sq] at this
      exact this
    rw [t1] at tri
    linarith
  have t4 : ri + (|dx| + |dy|) / κ < ro := by
    refine lt_of_le_of_lt (add_le_add_right ?_ _) hw
    exact div_le_div_of_nonneg_right (add_le_add n1 n2) hc.le
  have t5 : (ri * cos α + (dx * c + dy * s)) ^ 2 + (ri * sin α + (dy * c - dx * s) / κ) ^ 2 < ro ^ 2 := by
    have := lt_of_le_of_lt t3 t4
    rwa [sqrt_lt' hro] at this
  have t6 : ((ri * cos α + (dx * c + dy * s)) / ro) ^ 2 + ((ri * κ * sin α + (dy * c - dx * s)) / (ro * κ)) ^ 2 =
      ((ri * cos α + (dx * c + dy * s)) ^ 2 + (ri * sin α + (dy * c - dx * s) / κ) ^ 2) / ro ^ 2 := by
    field_simp
  rw [t6, div_lt_one (by positivity)]
  exact t5

/-- **C125** With double precision a vertex is off by less than `10⁻¹³` of radius and shift. -/
theorem C125_double {u R c : ℝ} (hu : u ≤ 1 / 2 ^ 50) (hR : 0 ≤ R) :
    blur u R c ≤ (R + |c|) / 10 ^ 13 := by
  unfold blur
  have h1 := mul_le_mul_of_nonneg_right hu hR
  have h2 := mul_le_mul_of_nonneg_right hu (abs_nonneg c)
  have h3 : (62 : ℝ) * (1 / 2 ^ 50) ≤ 1 / 10 ^ 13 := by norm_num
  have h4 := mul_le_mul_of_nonneg_right h3 hR
  have h5 : (1 : ℝ) / 2 ^ 50 ≤ 1 / 10 ^ 13 := by norm_num
  have h6 := mul_le_mul_of_nonneg_right h5 (abs_nonneg c)
  linarith

/-- **C125** Every ring that is constructed and then edited by any setter calls, none of them with NaN, is drawn so. -/
theorem C125_made {C : Type} (L : FloatLib ℝ) (u : ℝ) (hL : Accurate L u) (hu1 : 1000 * u ≤ 1) (fused : Bool)
    (verts : List Pt) (codes : List C) (hv : ∀ p ∈ verts, |p.1| ≤ 1 ∧ |p.2| ≤ 1) (x y : ℝ) (color : String)
    (i o t inc p : PyVal ℝ) (r : RingObj ℝ) (h : newRing i o t inc p = .ok r) (ops : List (RingOp ℝ)) (hi : NotNan i)
    (ho : NotNan o) (ht : NotNan t) (hinc : NotNan inc) (hp : NotNan p) (hops : ∀ op ∈ ops, NotNan op.arg) :
    ∃ ri ro P P', (runRingOps ops r).inner = .fin ri ∧ (runRingOps ops r).outer = .fin ro ∧
      getPatch verts codes (runRingOps ops r) (.float (.fin x)) (.float (.fin y)) (.str color) = .ok (some P) ∧
      PatchRounded.getPatch L fused verts codes (runRingOps ops r) (.float (.fin x)) (.float (.fin y)) (.str color) =
        .ok (some P') ∧
      List.Forall₂ (DrawnFor u ro (x, y)) P'.outer P.outer ∧ List.Forall₂ (DrawnFor u ri (x, y)) P'.inner P.inner := by
  obtain ⟨a, b, t', i', p', e, h1, h2, h3, h4, h5, h6, h7, h8⟩ :=
    C05_ring_always_valid_partial h ops hi ho ht hinc hp hops
  have hr : IsRing (runRingOps ops r) a b t' i' p' := by
    rw [e]
    exact ⟨rfl, rfl, rfl, rfl, rfl⟩
  obtain ⟨P, P', e1, e2, e3, e4, -⟩ := C125_vertices L u hL hu1 fused verts codes _ hr
    ⟨h1.le, by linarith, ⟨h3, h4⟩, ⟨h5, h6⟩, ⟨h7, h8⟩⟩ hv x y color
  exact ⟨a, b, P, P', hr.inner, hr.outer, e1, e2, e3, e4⟩

/-- A ring of Saturn's kind, in binary64: accurate, acceptable, with a path in the unit square. -/
example : Accurate .double (1 / 2 ^ 53) ∧ IsRing ⟨.fin 1, .fin 2, .fin (1 / 2), .fin 60, .fin 30⟩ 1 2 (1 / 2) 60 30 ∧
    RingNumbers 1 2 (1 / 2) 60 30 ∧ (∀ p ∈ [((1 : ℝ), (0 : ℝ)), (0, 1), (-1, 0), (0, -1), (1, 0)], |p.1| ≤ 1 ∧ |p.2| ≤ 1) := by
  refine ⟨double_accurate, ⟨rfl, rfl, rfl, rfl, rfl⟩, ⟨by norm_num, by norm_num, by norm_num, by norm_num, by norm_num⟩, ?_⟩
  intro p hp
  simp only [List.mem_cons, List.not_mem_nil, or_false] at hp
  rcases hp with rfl | rfl | rfl | rfl | rfl <;> norm_num

/-- It is wide enough for `C125_inside`. -/
example : 0 < cos (60 * π / 180) ∧
    (1 : ℝ) + (blur (1 / 2 ^ 53) 1 3 + blur (1 / 2 ^ 53) 1 0) / cos (60 * π / 180) < 2 := by
  rw [show (60 : ℝ) * π / 180 = π / 3 by ring, cos_pi_div_three]
  unfold blur
  norm_num

end Beyonce
