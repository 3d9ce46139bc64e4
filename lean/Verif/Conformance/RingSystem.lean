import Verif.RingLog

/-!
# `/repo/test_ring_system.py` on the model

The tests that the authors wrote for `RingSystem.py`, one `example` for each, in rational numbers without
rounding.  `test_repr` is in `Verif/Conformance/Texts.lean`.
-/

namespace Beyonce.Conformance.RingSystem
open Beyonce

/-- A float array. -/
abbrev floats (l : List ℚ) : PyVal ℚ := .arr ⟨"float64", [l.length], l.map .fin⟩

/-- The arguments of the fixture, L11-30. -/
def made : Except Err (RSys ℚ) :=
  newSystem (.float (.fin (1/2))) (floats [1, 6, 10, 20]) (floats [6, 10, 15, 30])
    (floats [1/5, 4/5, 3/10, 7/10]) (.int 75) (.int 37)

/-- The fixture, L11-30. -/
def system : RSys ℚ :=
  ⟨.fin (1/2), .fin 75, .fin 37,
    [⟨.fin 1, .fin 6, .fin (1/5), .fin 75, .fin 37⟩, ⟨.fin 6, .fin 10, .fin (4/5), .fin 75, .fin 37⟩,
     ⟨.fin 10, .fin 15, .fin (3/10), .fin 75, .fin 37⟩, ⟨.fin 20, .fin 30, .fin (7/10), .fin 75, .fin 37⟩]⟩

/-- `get_rings_data`, as numbers. -/
def data (s : RSys ℚ) : List (XF ℚ) × List (XF ℚ) × List (XF ℚ) :=
  (s.ringsData.1.data, s.ringsData.2.1.data, s.ringsData.2.2.data)

/-- Three lists of numbers. -/
abbrev rows (a b c : List ℚ) : List (XF ℚ) × List (XF ℚ) × List (XF ℚ) := (a.map .fin, b.map .fin, c.map .fin)

/-- `Ring(i, o, t)`. -/
def ring (i o t : ℚ) : RingObj ℚ := ⟨.fin i, .fin o, .fin t, .fin 0, .fin 0⟩

example : newRing (.int 35) (.int 40) (.float (.fin (2/5))) = .ok (ring 35 40 (2/5)) := by decide +kernel

/-- L31-46 test_init -/
example : made = .ok system := by decide +kernel
/-- L49-57 test_init_invalid -/
example : newSystem (.float (.fin (1/2))) (floats [0, 2]) (floats [1, 4]) (floats [1]) (.int 83) (.int 12)
    = .error .invalidShapeError := by decide +kernel
/-- L60-62 test_get_inner_radii -/
example : system.innerRadii = [.fin 1, .fin 6, .fin 10, .fin 20] := by decide +kernel
/-- L65-67 test_get_outer_radii -/
example : system.outerRadii = [.fin 6, .fin 10, .fin 15, .fin 30] := by decide +kernel
/-- L70-72 test_get_transmissions -/
example : system.transmissions = [.fin (1/5), .fin (4/5), .fin (3/10), .fin (7/10)] := by decide +kernel
/-- L75-80 test_get_rings_data -/
example : data system = rows [1, 6, 10, 20] [6, 10, 15, 30] [1/5, 4/5, 3/10, 7/10] := by decide +kernel
/-- L83-85 test_get_num_rings -/
example : system.rings.length = 4 := by decide +kernel

/-- What a call with a ring gives, and the data of the system afterwards. -/
def withRing (m : Meth (SysAndRing ℚ) Unit) (r : RingObj ℚ) :
    Except Err Unit × List (XF ℚ) × List (XF ℚ) × List (XF ℚ) :=
  ((m ⟨system, r⟩).1, data (m ⟨system, r⟩).2.sys)

/-- L88-96 test_append_ring -/
example : withRing (addRing (.int 4)) (ring 35 40 (2/5)) =
    (.ok (), rows [1, 6, 10, 20, 35] [6, 10, 15, 30, 40] [1/5, 4/5, 3/10, 7/10, 2/5]) := by decide +kernel
/-- L99-107 test_prepend_ring -/
example : withRing (addRing (.int 0)) (ring (1/10) (1/2) (2/5)) =
    (.ok (), rows [1/10, 1, 6, 10, 20] [1/2, 6, 10, 15, 30] [2/5, 1/5, 4/5, 3/10, 7/10]) := by decide +kernel
/-- L110-118 test_add_inbetween_ring -/
example : withRing (addRing (.int 3)) (ring 16 18 (2/5)) =
    (.ok (), rows [1, 6, 10, 16, 20] [6, 10, 15, 18, 30] [1/5, 4/5, 3/10, 2/5, 7/10]) := by decide +kernel
/-- L121-128 test_add_ring_inner_overlap -/
example : (withRing (addRing (.int 3)) (ring 14 18 (2/5))).1 = .error .valueError := by decide +kernel
/-- L131-138 test_add_ring_outer_overlap -/
example : (withRing (addRing (.int 3)) (ring 16 22 (2/5))).1 = .error .valueError := by decide +kernel
/-- L141-148 test_add_ring_both_overlap -/
example : (withRing (addRing (.int 3)) (ring 14 22 (2/5))).1 = .error .valueError := by decide +kernel
/-- L151-158 test_remove_ring -/
example : (removeRing (.int 2) system).1 = .ok () ∧
    data (removeRing (.int 2) system).2 = rows [1, 6, 20] [6, 10, 30] [1/5, 4/5, 7/10] := by decide +kernel
/-- L161-169 test_replace_ring_valid -/
example : withRing (replaceRing (.int 2)) (ring 12 18 (2/5)) =
    (.ok (), rows [1, 6, 12, 20] [6, 10, 18, 30] [1/5, 4/5, 2/5, 7/10]) := by decide +kernel
/-- L172-179 test_replace_ring_inner_overlap -/
example : (withRing (replaceRing (.int 2)) (ring 8 18 (2/5))).1 = .error .valueError := by decide +kernel
/-- L182-189 test_replace_ring_outer_overlap -/
example : (withRing (replaceRing (.int 2)) (ring 16 22 (2/5))).1 = .error .valueError := by decide +kernel
/-- L192-199 test_replace_ring_both_overlap -/
example : (withRing (replaceRing (.int 2)) (ring 8 18 (2/5))).1 = .error .valueError := by decide +kernel
/-- L202-209 test_split_rings_int -/
example : (splitRings id (.int 2) system).1 = .ok () ∧
    data (splitRings id (.int 2) system).2 =
      rows [1, 7/2, 6, 8, 10, 25/2, 20, 25] [7/2, 6, 8, 10, 25/2, 15, 25, 30]
        [1/5, 1/5, 4/5, 4/5, 3/10, 3/10, 7/10, 7/10] := by decide +kernel

/-- An integer array. -/
abbrev ints (l : List ℚ) : PyVal ℚ := .arr ⟨"int64", [l.length], l.map .fin⟩

/-- L212-219 test_split_rings_array_valid -/
example : (splitRings id (ints [1, 2, 1, 4]) system).1 = .ok () ∧
    data (splitRings id (ints [1, 2, 1, 4]) system).2 =
      rows [1, 6, 8, 10, 20, 45/2, 25, 55/2] [6, 8, 10, 15, 45/2, 25, 55/2, 30]
        [1/5, 4/5, 4/5, 3/10, 7/10, 7/10, 7/10, 7/10] := by decide +kernel
/-- L222-226 test_split_rings_invalid_array -/
example : (splitRings id (ints [1, 3]) system).1 = .error .invalidShapeError := by decide +kernel

/-- The default tolerance, RingSystem.py L561. -/
abbrev tolerance : XF ℚ := .fin (1 / 10 ^ 6)

/-- L229-237 test_merge_rings_perfect -/
example : (mergeRings id tolerance (splitRings id (.int 2) system).2).1 = .ok () ∧
    data (mergeRings id tolerance (splitRings id (.int 2) system).2).2 =
      rows [1, 6, 10, 20] [6, 10, 15, 30] [1/5, 4/5, 3/10, 7/10] := by decide +kernel

/-- L240-260 test_merge_rings_tolerance, with some noise for the random numbers -/
example : (newSystem (.float (.fin (1/2))) (floats [1, 7/2, 6, 8, 10, 25/2, 20, 25])
      (floats [7/2, 6, 8, 10, 25/2, 15, 25, 30])
      (floats [1/5 + 1/10^6, 1/5 - 1/10^7, 4/5 + 3/10^7, 4/5, 3/10 - 2/10^6, 3/10 + 1/10^6, 7/10 + 1/10^9, 7/10])
      (.float (.fin 75)) (.float (.fin 37))).map
    (fun s => ((mergeRings id tolerance s).1, (mergeRings id tolerance s).2.rings.length))
      = .ok (.ok (), 8) := by decide +kernel
/-- L263-270 test_merge_rings_no_merge -/
example : (mergeRings id tolerance system).1 = .ok () ∧
    data (mergeRings id tolerance system).2 = data system := by decide +kernel

theorem ringPatches_length {C : Type} (verts : List Pt) (codes : List C) (l : List (RingObj ℝ)) :
    ∃ ps, ringPatches verts codes (.int 0) (.int 0) (.str "black") l = .ok ps ∧ ps.length = l.length := by
  induction l with
  | nil => exact ⟨_, rfl, rfl⟩
  | cons r l ih =>
    obtain ⟨ps, h1, h2⟩ := ih
    refine ⟨.ring (patchOf verts codes r (.fin (0 : ℤ)) (.fin (0 : ℤ))) :: ps, ?_, by simp [h2]⟩
    have : getPatch verts codes r (.int 0) (.int 0) (.str "black")
        = .ok (patchOf verts codes r (.fin (0 : ℤ)) (.fin (0 : ℤ))) := rfl
    simp [ringPatches, this, h1, bind, Except.bind]

/-- L273-278 test_get_patches: for every system -/
example {C : Type} (verts : List Pt) (codes : List C) (s : RSys ℝ) :
    ∃ ps, systemPatches verts codes s (.int 0) (.int 0) (.str "black") = .ok ps ∧
      ps.length = s.rings.length + 1 := by
  obtain ⟨ps, h1, h2⟩ := ringPatches_length verts codes s.rings
  refine ⟨.disc (.fin (0 : ℤ)) (.fin (0 : ℤ)) s.planet :: ps, ?_, by simp [h2]⟩
  have h3 : number (.int 0 : PyVal ℝ) = .ok (.int 0) := rfl
  have h4 : string (.str "black" : PyVal ℝ) = .ok "black" := rfl
  simp [systemPatches, h1, h3, h4, bind, Except.bind]

/-- L281-285 test_plot: for every system that ends with a finite ring, on new axes -/
example {C : Type} (verts : List Pt) (codes : List C) (s : RSys ℝ) (r : RingObj ℝ) (o : ℝ)
    (hr : s.rings.getLast? = some r) (ho : r.outer = .fin o) (ax : Axes C) (hax : ax.patches = []) :
    (plotSystem verts codes s (.int 0) (.int 0) (.str "black") ax).1 = .ok () ∧
    (plotSystem verts codes s (.int 0) (.int 0) (.str "black") ax).2.patches.length = s.rings.length + 1 := by
  obtain ⟨ps, h1, h2⟩ := ringPatches_length verts codes s.rings
  have h3 : number (.int 0 : PyVal ℝ) = .ok (.int 0) := rfl
  have h4 : string (.str "black" : PyVal ℝ) = .ok "black" := rfl
  have hp : systemPatches verts codes s (.int 0) (.int 0) (.str "black")
      = .ok (.disc (.fin (0 : ℤ)) (.fin (0 : ℤ)) s.planet :: ps) := by
    simp [systemPatches, h1, h3, h4, bind, Except.bind]
  have hl : plotLimits s (PyVal.int 0 : PyVal ℝ).num (PyVal.int 0 : PyVal ℝ).num =
      .ok ((.fin (0 + -o + -2), .fin (0 + o + 2)), (.fin (0 + -o + -2), .fin (0 + o + 2))) := by
    simp [plotLimits, hr, ho, XF.sub, XF.add, XF.neg]
  unfold plotSystem
  rw [hp, hl]
  simp [hax, h2, Meth.lift, Meth.modify, setXLim, setYLim, bind]

end Beyonce.Conformance.RingSystem
