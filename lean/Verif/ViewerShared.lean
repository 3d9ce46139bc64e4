import Verif.Viewer

/-!
# Viewers of one property, `/repo/GridProperty.py` L146-170 and L591-856, by reference

`get_data` returns the attribute `data` itself (L163-170), so `self.data` of a viewer (L634) is the array of its
property, and no method gives either of them another array.  Here a property lives beside its viewers, and a viewer
that is scrolled reads the array as it is then.  The picture is a copy: `np.take` makes one (L666, L828).  Each viewer
has axes of its own.
-/

namespace Beyonce

section
variable {K : Type} [Field K] [LinearOrder K]

/-- A property and its viewers in the order in which they were made.  The field `data` of the viewers is left empty: their
array is that of the property. -/
structure Desk (K : Type) where
  prop : GProp K
  viewers : List (Viewer K)

namespace Desk

/-- A viewer without its array. -/
def bare (v : Viewer K) : Viewer K := { v with data := ⟨[], []⟩ }

/-- A call of a method of the property. -/
def onProp {α : Type} (m : Meth (GProp K) α) : Meth (Desk K) α := fun d =>
  ((m d.prop).1, { d with prop := (m d.prop).2 })

/-- L600-682: a new viewer of the property.  `get_data` may have written before `__init__` raises. -/
def view (axis masked : PyVal K) (index : PyVal K := .none) (frozen : PyVal K := .bool false)
    (coordinates : Option (List (List (XF K))) := none) : Meth (Desk K) Unit := do
  let v ← onProp (Viewer.new axis masked index frozen coordinates)
  Meth.modify fun d => { d with viewers := d.viewers ++ [bare v] }

/-- L800-821 `onscroll` of viewer `k`, with the array of the property. -/
def scroll (k : ℕ) (button : String) : Meth (Desk K) Unit := fun d =>
  match d.viewers[k]? with
  | none => (.ok (), d)
  | some v =>
    let r := Viewer.onscroll button { v with data := d.prop.data }
    (r.1, { d with viewers := d.viewers.set k (bare r.2) })

end Desk
end
end Beyonce
