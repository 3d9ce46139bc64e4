import Verif.RingPatch
import Verif.Props.Ring
import Mathlib.Tactic.LinearCombination
import Mathlib.Analysis.SpecialFunctions.Complex.Arg

/-!
# Property C07: the ring patch is the projected annulus
-/

namespace Beyonce
open Real

/-- The ellipse with centre `c`, semi-axis `A` in the direction of angle `φ` and semi-axis `B`
perpendicular to it. -/
def Spec.Ellipse (c : Pt) (A B φ : ℝ) : Set Pt :=
  {p | ∃ α : ℝ, p = (c.1 + A * cos α * cos φ - B * sin α * sin φ,
                     c.2 + A * cos α * sin φ + B * sin α * cos φ)}

/-- Twice the signed area of the polygon with the given vertices (shoelace formula), closing
edge not included. -/
def Spec.shoelace : List Pt → ℝ
  | p :: q :: ps => (p.1 * q.2 - q.1 * p.2) + Spec.shoelace (q :: ps)
  | _ => 0

/-- A point of the cubic Bézier curve with four control points. -/
noncomputable def Spec.bezier (p0 p1 p2 p3 : Pt) (t : ℝ) : Pt :=
  ((1-t)^3 * p0.1 + 3*(1-t)^2*t * p1.1 + 3*(1-t)*t^2 * p2.1 + t^3 * p3.1,
   (1-t)^3 * p0.2 + 3*(1-t)^2*t * p1.2 + 3*(1-t)*t^2 * p2.2 + t^3 * p3.2)

open Spec

/-- The numbers of a finite ring. -/
structure Spec.IsRing (r : RingObj ℝ) (ri ro t i phi : ℝ) : Prop where
  inner : r.inner = .fin ri
  outer : r.outer = .fin ro
  transmission : r.transmission = .fin t
  inclination : r.inclination = .fin i
  tilt : r.tilt = .fin phi

/-- **C07** `get_patch` succeeds for every finite shift, the opacity is one minus the
transmission, and each boundary is the image of the path vertices. -/
theorem C07_patch_exists {C : Type} (verts : List Pt) (codes : List C) (r : RingObj ℝ)
    {ri ro t i phi : ℝ} (hr : IsRing r ri ro t i phi) (x y : ℝ) (color : String) :
    ∃ P, getPatch verts codes r (.float (.fin x)) (.float (.fin y)) (.str color) = .ok (some P) ∧
      P.alpha = 1 - t ∧ P.outer.length = verts.length ∧ P.inner.length = verts.length ∧
      P.codes = codes ++ codes := by
  refine ⟨⟨verts.map (outerVertex ro (deg2rad i) (deg2rad phi) (x, y)),
    verts.map (innerVertex ri (deg2rad i) (deg2rad phi) (x, y)), codes ++ codes, 1 - t⟩,
    ?_, rfl, by simp, by simp, rfl⟩
  have hn : ∀ z : ℝ, number (.float (.fin z)) = .ok (PyVal.float (.fin z)) := by
    intro z
    rfl
  unfold getPatch
  rw [hn, hn]
  simp only [bind, Except.bind, string, classObject, isinstance, if_true, patchOf, hr.inner,
    hr.outer, hr.transmission, hr.inclination, hr.tilt, PyVal.num_float]

theorem patch_fields {C : Type} {verts : List Pt} {codes : List C} {r : RingObj ℝ}
    {ri ro t i phi : ℝ} (hr : IsRing r ri ro t i phi) {x y : ℝ} {color : PyVal ℝ} {P : Patch C}
    (h : getPatch verts codes r (.float (.fin x)) (.float (.fin y)) color = .ok (some P)) :
    P.outer = verts.map (outerVertex ro (deg2rad i) (deg2rad phi) (x, y)) ∧
    P.inner = verts.map (innerVertex ri (deg2rad i) (deg2rad phi) (x, y)) := by
  have hn : ∀ z : ℝ, number (.float (.fin z)) = .ok (PyVal.float (.fin z)) := fun z => rfl
  unfold getPatch at h
  rw [hn, hn] at h
  simp only [bind, Except.bind, patchOf, hr.inner, hr.outer, hr.transmission, hr.inclination,
    hr.tilt, PyVal.num_float] at h
  cases hs : string color with
  | error e => rw [hs] at h; cases h
  | ok c =>
    rw [hs] at h
    simp only [Except.ok.injEq, Option.some.injEq] at h
    subst h
    exact ⟨rfl, rfl⟩

/-- The angle of a point of the unit circle. -/
theorem unit_angle {p : Pt} (h : p.1 ^ 2 + p.2 ^ 2 = 1) : ∃ α, p.1 = cos α ∧ p.2 = sin α := by
  obtain ⟨z, hz⟩ : ∃ z : ℂ, z = ⟨p.1, p.2⟩ := ⟨_, rfl⟩
  have hn : ‖z‖ = 1 := by
    rw [hz, Complex.norm_def, Complex.normSq_mk, show p.1 * p.1 + p.2 * p.2 = 1 by nlinarith]
    simp
  have hz0 : z ≠ 0 := by intro h0; rw [h0] at hn; simp at hn
  refine ⟨z.arg, ?_, ?_⟩
  · rw [Complex.cos_arg hz0, hn, hz]; simp
  · rw [Complex.sin_arg, hn, hz]; simp

theorem deg2rad_eq (x : ℝ) : deg2rad x = x * π / 180 := by unfold deg2rad; ring

theorem outerVertex_mem (c : Pt) (R i phi : ℝ) {p : Pt} (hp : p.1 ^ 2 + p.2 ^ 2 = 1) :
    outerVertex R i phi c p ∈ Ellipse c R (R * cos i) phi := by
  obtain ⟨α, h1, h2⟩ := unit_angle hp
  refine ⟨-α, ?_⟩
  simp only [outerVertex, rotateRow, h1, h2, cos_neg, sin_neg]
  ext <;> simp only <;> ring

theorem innerVertex_mem (c : Pt) (R i phi : ℝ) {p : Pt} (hp : p.1 ^ 2 + p.2 ^ 2 = 1) :
    innerVertex R i phi c p ∈ Ellipse c R (R * cos i) phi := by
  obtain ⟨α, h1, h2⟩ := unit_angle hp
  refine ⟨α + π, ?_⟩
  simp only [innerVertex, rotateRow, h1, h2, cos_add_pi, sin_add_pi]
  ext <;> simp only <;> ring

/-- **C07** Every path vertex on the unit circle goes, on the outer boundary, to a point of the
ellipse with semi-major axis `outer_radius` along the tilt direction and semi-minor axis
`outer_radius * cos(inclination)`, centred on the shift; on the inner boundary likewise with
`inner_radius`. -/
theorem C07_on_ellipse {C : Type} (verts : List Pt) (codes : List C) (r : RingObj ℝ)
    {ri ro t i phi : ℝ} (hr : IsRing r ri ro t i phi) (x y : ℝ) (color : PyVal ℝ) (P : Patch C)
    (h : getPatch verts codes r (.float (.fin x)) (.float (.fin y)) color = .ok (some P))
    (k : ℕ) (p : Pt) (hk : verts[k]? = some p) (hp : p.1 ^ 2 + p.2 ^ 2 = 1) :
    (∃ q, P.outer[k]? = some q ∧
      q ∈ Ellipse (x, y) ro (ro * cos (i * π / 180)) (phi * π / 180)) ∧
    (∃ q, P.inner[k]? = some q ∧
      q ∈ Ellipse (x, y) ri (ri * cos (i * π / 180)) (phi * π / 180)) := by
  obtain ⟨h1, h2⟩ := patch_fields hr h
  rw [h1, h2, ← deg2rad_eq, ← deg2rad_eq]
  constructor
  · exact ⟨_, by rw [List.getElem?_map, hk]; rfl, outerVertex_mem _ _ _ _ hp⟩
  · exact ⟨_, by rw [List.getElem?_map, hk]; rfl, innerVertex_mem _ _ _ _ hp⟩

/-- **C07** Every point of the two ellipses is the image of a point of the unit circle: the
boundaries are whole ellipses. -/
theorem C07_onto {C : Type} (codes : List C) (r : RingObj ℝ)
    {ri ro t i phi : ℝ} (hr : IsRing r ri ro t i phi) (x y : ℝ) (color : String) (q : Pt) :
    (q ∈ Ellipse (x, y) ro (ro * cos (i * π / 180)) (phi * π / 180) →
      ∃ (p : Pt) (P : Patch C), p.1 ^ 2 + p.2 ^ 2 = 1 ∧
        getPatch [p] codes r (.float (.fin x)) (.float (.fin y)) (.str color) = .ok (some P) ∧
        P.outer = [q]) ∧
    (q ∈ Ellipse (x, y) ri (ri * cos (i * π / 180)) (phi * π / 180) →
      ∃ (p : Pt) (P : Patch C), p.1 ^ 2 + p.2 ^ 2 = 1 ∧
        getPatch [p] codes r (.float (.fin x)) (.float (.fin y)) (.str color) = .ok (some P) ∧
        P.inner = [q]) := by
  constructor
  · rintro ⟨α, rfl⟩
    obtain ⟨P, h, -⟩ := C07_patch_exists [(cos (-α), sin (-α))] codes r hr x y color
    refine ⟨_, P, cos_sq_add_sin_sq _, h, ?_⟩
    rw [(patch_fields hr h).1, ← deg2rad_eq, ← deg2rad_eq]
    simp only [List.map_cons, List.map_nil, List.cons.injEq, and_true, outerVertex, rotateRow,
      cos_neg, sin_neg]
    ext <;> simp only <;> ring
  · rintro ⟨α, rfl⟩
    obtain ⟨P, h, -⟩ := C07_patch_exists [(cos (α + π), sin (α + π))] codes r hr x y color
    refine ⟨_, P, cos_sq_add_sin_sq _, h, ?_⟩
    rw [(patch_fields hr h).2, ← deg2rad_eq, ← deg2rad_eq]
    simp only [List.map_cons, List.map_nil, List.cons.injEq, and_true, innerVertex, rotateRow,
      cos_add_pi, sin_add_pi]
    ext <;> simp only <;> ring

/-- The shoelace sum under an affine map. -/
theorem shoelace_affine (a b c d e f : ℝ) (T : Pt → Pt)
    (hT : ∀ p, T p = (e + (a * p.1 + b * p.2), f + (c * p.1 + d * p.2))) (p : Pt) (ps : List Pt) :
    shoelace ((p :: ps).map T) = (a * d - b * c) * shoelace (p :: ps) +
      (e * ((c * (ps.getLastD p).1 + d * (ps.getLastD p).2) - (c * p.1 + d * p.2)) -
       f * ((a * (ps.getLastD p).1 + b * (ps.getLastD p).2) - (a * p.1 + b * p.2))) := by
  induction ps generalizing p with
  | nil => simp only [List.map_cons, List.map_nil, shoelace, List.getLastD]; ring
  | cons q qs ih =>
    have := ih q
    simp only [List.map_cons] at this
    simp only [List.map_cons, shoelace, List.getLastD_cons]
    rw [this, hT p, hT q]
    simp only
    ring

/-- **C07** The inner boundary runs the other way round: for a closed path the signed areas of
the two boundaries have opposite signs (and the ratio of the squared radii). So a fill by winding
number leaves the inside of the inner ellipse empty. -/
theorem C07_opposite_orientation {C : Type} (p : Pt) (ps : List Pt) (hclosed : ps.getLastD p = p)
    (codes : List C) (r : RingObj ℝ) {ri ro t i phi : ℝ} (hr : IsRing r ri ro t i phi) (x y : ℝ)
    (color : PyVal ℝ) (P : Patch C)
    (h : getPatch (p :: ps) codes r (.float (.fin x)) (.float (.fin y)) color = .ok (some P)) :
    shoelace P.outer = - (ro ^ 2 * cos (i * π / 180) * shoelace (p :: ps)) ∧
    shoelace P.inner = ri ^ 2 * cos (i * π / 180) * shoelace (p :: ps) := by
  obtain ⟨h1, h2⟩ := patch_fields hr h
  rw [h1, h2, ← deg2rad_eq]
  have e := sin_sq_add_cos_sq (deg2rad phi)
  constructor
  · rw [shoelace_affine (ro * cos (deg2rad phi)) (ro * cos (deg2rad i) * sin (deg2rad phi))
      (ro * sin (deg2rad phi)) (- (ro * cos (deg2rad i) * cos (deg2rad phi))) x y _
      (by intro p; simp only [outerVertex, rotateRow]; ext <;> simp only <;> ring), hclosed]
    linear_combination (- (ro ^ 2 * cos (deg2rad i) * shoelace (p :: ps))) * e
  · rw [shoelace_affine (-(ri * cos (deg2rad phi))) (ri * cos (deg2rad i) * sin (deg2rad phi))
      (-(ri * sin (deg2rad phi))) (- (ri * cos (deg2rad i) * cos (deg2rad phi))) x y _
      (by intro p; simp only [innerVertex, rotateRow]; ext <;> simp only <;> ring), hclosed]
    linear_combination (ri ^ 2 * cos (deg2rad i) * shoelace (p :: ps)) * e

/-- **C07** The inner boundary lies strictly inside the outer ellipse (unless seen edge-on): the
ellipse equation of the outer boundary has the value `(inner/outer)² < 1` there. -/
theorem C07_inner_inside {C : Type} (verts : List Pt) (codes : List C) (r : RingObj ℝ)
    {ri ro t i phi : ℝ} (hr : IsRing r ri ro t i phi) (hri : 0 < ri) (hro : ri < ro)
    (hi : cos (i * π / 180) ≠ 0) (x y : ℝ) (color : PyVal ℝ) (P : Patch C)
    (h : getPatch verts codes r (.float (.fin x)) (.float (.fin y)) color = .ok (some P))
    (k : ℕ) (p q : Pt) (hk : verts[k]? = some p) (hp : p.1 ^ 2 + p.2 ^ 2 = 1)
    (hq : P.inner[k]? = some q) :
    (((q.1 - x) * cos (phi * π / 180) + (q.2 - y) * sin (phi * π / 180)) / ro) ^ 2 +
    (((q.2 - y) * cos (phi * π / 180) - (q.1 - x) * sin (phi * π / 180)) /
      (ro * cos (i * π / 180))) ^ 2 < 1 := by
  obtain ⟨-, q', hq', α, rfl⟩ := C07_on_ellipse verts codes r hr x y color P h k p hk hp
  rw [hq] at hq'
  obtain rfl := Option.some.inj hq'
  have e := sin_sq_add_cos_sq (phi * π / 180)
  have e2 := sin_sq_add_cos_sq α
  set c := cos (phi * π / 180)
  set s := sin (phi * π / 180)
  have hro0 : 0 < ro := hri.trans hro
  have a1 : (x + ri * cos α * c - ri * cos (i * π / 180) * sin α * s - x) * c +
      (y + ri * cos α * s + ri * cos (i * π / 180) * sin α * c - y) * s = ri * cos α := by
    linear_combination (ri * cos α) * e
  have a2 : (y + ri * cos α * s + ri * cos (i * π / 180) * sin α * c - y) * c -
      (x + ri * cos α * c - ri * cos (i * π / 180) * sin α * s - x) * s =
      ri * cos (i * π / 180) * sin α := by
    linear_combination (ri * cos (i * π / 180) * sin α) * e
  simp only [a1, a2]
  have a3 : (ri * cos α / ro) ^ 2 + (ri * cos (i * π / 180) * sin α / (ro * cos (i * π / 180))) ^ 2
      = (ri / ro) ^ 2 := by
    field_simp
    linear_combination e2
  rw [a3]
  have : ri / ro < 1 := (div_lt_one hro0).2 hro
  have h0 : 0 < ri / ro := by positivity
  nlinarith

/-- **C07** What is drawn between the vertices: a Bézier segment of either boundary is the same
affine image of the Bézier segment of the path, so curve points on the unit circle go to the
ellipse as well. -/
theorem C07_curves {C : Type} (p0 p1 p2 p3 : Pt) (u : ℝ) (codes codes' : List C) (r : RingObj ℝ)
    {ri ro t i phi : ℝ} (hr : IsRing r ri ro t i phi) (x y : ℝ) (color : PyVal ℝ) (P Q : Patch C)
    (h : getPatch [p0, p1, p2, p3] codes r (.float (.fin x)) (.float (.fin y)) color = .ok (some P))
    (h' : getPatch [bezier p0 p1 p2 p3 u] codes' r (.float (.fin x)) (.float (.fin y)) color =
      .ok (some Q)) :
    (∃ a b c d, P.outer = [a, b, c, d] ∧ Q.outer = [bezier a b c d u]) ∧
    (∃ a b c d, P.inner = [a, b, c, d] ∧ Q.inner = [bezier a b c d u]) := by
  obtain ⟨h1, h2⟩ := patch_fields hr h
  obtain ⟨h3, h4⟩ := patch_fields hr h'
  rw [h1, h2, h3, h4]
  constructor
  · refine ⟨_, _, _, _, rfl, ?_⟩
    simp only [List.map_cons, List.map_nil, List.cons.injEq, and_true, outerVertex, rotateRow, bezier]
    ext <;> simp only <;> ring
  · refine ⟨_, _, _, _, rfl, ?_⟩
    simp only [List.map_cons, List.map_nil, List.cons.injEq, and_true, innerVertex, rotateRow, bezier]
    ext <;> simp only <;> ring

/-- A ring, a closed path on the unit circle with nonzero area, and an inclination that is not
edge-on. -/
example : IsRing ⟨.fin 1, .fin 2, .fin 0, .fin 60, .fin 30⟩ 1 2 0 60 30 ∧
    shoelace [(1, 0), (0, 1), (-1, 0), (1, 0)] = 2 ∧ cos (60 * π / 180) ≠ 0 := by
  refine ⟨⟨rfl, rfl, rfl, rfl, rfl⟩, by norm_num [shoelace], ?_⟩
  rw [show (60 : ℝ) * π / 180 = π / 3 by ring, cos_pi_div_three]
  norm_num

end Beyonce
