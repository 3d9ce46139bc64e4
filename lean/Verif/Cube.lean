import Verif.GridProperty

/-!
# Three-dimensional arrays

The part of numpy that `/repo/Shallot.py` uses on cubes `(dy, dx, rf)`: element access, arrays made
element by element (broadcasting), flips, `np.delete`, `np.nanargmin` and `np.unravel_index`.
This file models the library, not a file of `/repo`.
-/

namespace Beyonce
section
variable {K : Type}

/-- The array of shape `(a, b, c)` with these elements, in C order. -/
def cubeOf (a b c : ℕ) (f : ℕ → ℕ → ℕ → XF K) : Nd K :=
  ⟨[a, b, c], (List.range a).flatMap fun y => (List.range b).flatMap fun x =>
    (List.range c).map fun r => f y x r⟩

/-- `d[y, x, r]` for indices in range (NaN otherwise). -/
def Nd.at3 (d : Nd K) (y x r : ℕ) : XF K :=
  match d.shape with
  | [_, b, c] => d.data.getD ((y * b + x) * c + r) .nan
  | _ => .nan

/-- `d[y, x, r]` for indices that are not negative; too large ones raise. -/
def Nd.get3 (d : Nd K) (y x r : ℤ) : Except Err (XF K) :=
  match d.shape with
  | [a, b, c] =>
    if 0 ≤ y ∧ y < a ∧ 0 ≤ x ∧ x < b ∧ 0 ≤ r ∧ r < c then .ok (d.at3 y.toNat x.toNat r.toNat)
    else .error .indexError
  | _ => .error .indexError

/-- `np.flipud` of an array of shape `(a, b, c)`. -/
def flipud (a b c : ℕ) (d : Nd K) : Nd K := cubeOf a b c fun y x r => d.at3 (a - 1 - y) x r

/-- `np.fliplr`. -/
def fliplr (a b c : ℕ) (d : Nd K) : Nd K := cubeOf a b c fun y x r => d.at3 y (b - 1 - x) r

/-- `np.delete(d, i, axis=0)` of an array of shape `(a, b, c)`. -/
def deleteRow (a b c : ℕ) (d : Nd K) (i : ℕ) : Nd K :=
  cubeOf (a - 1) b c fun y x r => d.at3 (if y < i then y else y + 1) x r

/-- `np.delete(d, i, axis=1)`. -/
def deleteColumn (a b c : ℕ) (d : Nd K) (i : ℕ) : Nd K :=
  cubeOf a (b - 1) c fun y x r => d.at3 y (if x < i then x else x + 1) r

/-- The flat position of an element in C order, and `np.unravel_index`. -/
def unravel (b c i : ℕ) : ℕ × ℕ × ℕ := (i / (b * c), i / c % b, i % c)

/-- `d[m] = np.nan` for a mask of the same shape. -/
def Nd.putNan (d : Nd K) (m : Mask) : Nd K := ⟨d.shape, putWhere .nan m.data d.data⟩

variable [Field K] [LinearOrder K]

/-- `np.argmin` of an array without NaN: the first of the smallest elements. -/
def argmin (l : List (XF K)) : ℕ := l.findIdx fun x => l.all fun y => !XF.lt y x

/-- `np.nanargmin` (numpy/lib/nanfunctions.py): NaN is replaced by infinity; raises `ValueError` if
all elements are NaN or there are none. -/
def nanargmin (l : List (XF K)) : Except Err ℕ :=
  if l.all XF.isNan then .error .valueError
  else .ok (argmin (l.map fun x => if x.isNan then .pinf else x))

end
end Beyonce
