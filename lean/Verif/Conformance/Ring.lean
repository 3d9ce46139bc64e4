import Verif.Ring
import Verif.RingPatch

/-!
# `/repo/test_ring.py` on the model

The tests that the authors wrote for `Ring.py`, one `example` for each, in rational numbers.  `test_print`
is in `Verif/Conformance/Texts.lean`.
-/

namespace Beyonce.Conformance.Ring
open Beyonce

/-- A float argument. -/
abbrev f (x : ℚ) : PyVal ℚ := .float (.fin x)

/-- An argument that is written as an integer. -/
abbrev i (n : ℤ) : PyVal ℚ := .int n

/-- Construct a ring and assign one of its attributes. -/
def assigned (r : Except Err (RingObj ℚ)) (op : RingOp ℚ) : Except Err (RingObj ℚ) :=
  match r with
  | .error e => .error e
  | .ok r => match op.run r with
    | (.ok _, r) => .ok r
    | (.error e, _) => .error e

/-- L5-13 test_create_ring_defaults -/
example : newRing (f (1/5)) (i 1) (f (1/2)) = .ok ⟨.fin (1/5), .fin 1, .fin (1/2), .fin 0, .fin 0⟩ := by
  decide +kernel
/-- L15-23 test_create_ring -/
example : newRing (f (1/2)) (i 12) (f (3/10)) (i 74) (i 37)
    = .ok ⟨.fin (1/2), .fin 12, .fin (3/10), .fin 74, .fin 37⟩ := by decide +kernel
/-- L25-33 test_create_ring_inner_radius_zero -/
example : newRing (i 0) (i 1) (f (1/2)) = .ok ⟨.fin (1/10^16), .fin 1, .fin (1/2), .fin 0, .fin 0⟩ := by
  decide +kernel
/-- L35-41 test_ring_negative_inner_radius -/
example : newRing (i (-1)) (i 1) (f (1/2)) = .error .valueError := by decide +kernel
/-- L43-49 test_set_ring_inner_radius -/
example : (newRing (f (1/10)) (i 1) (f (1/2))).map (·.inner) = .ok (.fin (1/10)) ∧
    (assigned (newRing (f (1/10)) (i 1) (f (1/2))) (.inner (f (3/10)))).map (·.inner) = .ok (.fin (3/10)) := by
  decide +kernel
/-- L51-59 test_set_ring_negative_inner_radius -/
example : assigned (newRing (i 0) (i 1) (f (1/2))) (.inner (i (-1))) = .error .valueError := by decide +kernel
/-- L61-70 test_set_ring_inner_radius_greater_than_outer_radius -/
example : assigned (newRing (i 0) (i 1) (f (1/2))) (.inner (i 2)) = .error .valueError := by decide +kernel
/-- L72-80 test_ring_outer_radius_smaller_than_inner_radius -/
example : newRing (i 1) (f (1/5)) (f (1/2)) = .error .valueError := by decide +kernel
/-- L82-88 test_set_ring_outer_radius -/
example : (newRing (i 0) (i 1) (f (1/2))).map (·.outer) = .ok (.fin 1) ∧
    (assigned (newRing (i 0) (i 1) (f (1/2))) (.outer (i 2))).map (·.outer) = .ok (.fin 2) := by decide +kernel
/-- L90-99 test_set_ring_outer_radius_smaller_than_inner_radius -/
example : assigned (newRing (f (1/10)) (f (1/5)) (f (1/2))) (.outer (f 0)) = .error .valueError := by
  decide +kernel
/-- L101-107 test_ring_transmission_less_than_zero -/
example : newRing (i 0) (i 1) (i (-1)) = .error .valueError := by decide +kernel
/-- L109-115 test_ring_transmission_greater_than_one -/
example : newRing (i 0) (i 1) (i 2) = .error .valueError := by decide +kernel
/-- L117-123 test_set_ring_transmission -/
example : (newRing (i 0) (i 1) (f (1/2))).map (·.transmission) = .ok (.fin (1/2)) ∧
    (assigned (newRing (i 0) (i 1) (f (1/2))) (.transmission (f (3/10)))).map (·.transmission)
      = .ok (.fin (3/10)) := by decide +kernel
/-- L125-134 test_set_ring_transmission_less_than_zero -/
example : assigned (newRing (i 0) (i 1) (f (1/2))) (.transmission (i (-1))) = .error .valueError := by
  decide +kernel
/-- L136-145 test_set_ring_transmission_greater_than_one -/
example : assigned (newRing (i 0) (i 1) (f (1/2))) (.transmission (i 2)) = .error .valueError := by
  decide +kernel
/-- L147-153 test_ring_inclination_less_than_zero -/
example : newRing (i 0) (i 1) (f (1/2)) (inclination := i (-1)) = .error .valueError := by decide +kernel
/-- L155-161 test_ring_inclination_greater_than_ninety -/
example : newRing (i 0) (i 1) (f (1/2)) (inclination := i 100) = .error .valueError := by decide +kernel
/-- L163-169 test_set_ring_inclination -/
example : (newRing (i 0) (i 1) (f (1/2)) (inclination := i 12)).map (·.inclination) = .ok (.fin 12) ∧
    (assigned (newRing (i 0) (i 1) (f (1/2)) (inclination := i 12)) (.inclination (i 70))).map (·.inclination)
      = .ok (.fin 70) := by decide +kernel
/-- L171-179 test_set_ring_inclination_less_than_zero -/
example : assigned (newRing (i 0) (i 1) (f (1/2))) (.inclination (i (-1))) = .error .valueError := by
  decide +kernel
/-- L181-189 test_set_ring_inclination_greater_than_ninety -/
example : assigned (newRing (i 0) (i 1) (f (1/2))) (.inclination (i 100)) = .error .valueError := by
  decide +kernel
/-- L191-197 test_ring_tilt_out_of_range_negative -/
example : newRing (i 0) (i 1) (f (1/2)) (tilt := i (-200)) = .error .valueError := by decide +kernel
/-- L199-205 test_ring_tilt_out_of_range_positive -/
example : newRing (i 0) (i 1) (f (1/2)) (tilt := i 200) = .error .valueError := by decide +kernel
/-- L207-213 test_set_ring_tilt -/
example : (newRing (i 0) (i 1) (f (1/2)) (tilt := i 15)).map (·.tilt) = .ok (.fin 15) ∧
    (assigned (newRing (i 0) (i 1) (f (1/2)) (tilt := i 15)) (.tilt (i 60))).map (·.tilt) = .ok (.fin 60) := by
  decide +kernel
/-- L215-223 test_set_ring_tilt_out_of_range_negative -/
example : assigned (newRing (i 0) (i 1) (f (1/2))) (.tilt (i (-200))) = .error .valueError := by decide +kernel
/-- L225-233 test_set_ring_tilt_out_of_range_positive -/
example : assigned (newRing (i 0) (i 1) (f (1/2))) (.tilt (i 200)) = .error .valueError := by decide +kernel
/-- L235-239 test_get_patches: with finite numbers there is a patch (default shifts 0 and colour "black"). -/
example {C : Type} (verts : List Pt) (codes : List C) :
    ∃ p, getPatch verts codes ⟨.fin (1/10^16), .fin 1, .fin (1/2), .fin 0, .fin 0⟩ (.int 0) (.int 0)
      (.str "black") = .ok (some p) := ⟨_, rfl⟩

end Beyonce.Conformance.Ring
