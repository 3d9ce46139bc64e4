import Verif.RingSystem

/-!
# Ring objects and ring systems as objects

Python passes objects by reference: `add_ring` and `replace_ring` store the caller's `Ring`
object in the system and override its geometry in place (RingSystem.py L438-509), so that the
object can be shared between systems and edited afterwards.  A `World` holds all `Ring` objects
(`heap`) and all ring systems, whose rings are references into the heap.
-/

namespace Beyonce

/-- A ring system whose rings are references, RingSystem.py L71-79 and L258. -/
structure SysObj (K : Type) where
  planet : XF K
  inclination : XF K
  tilt : XF K
  rings : List ℕ
  deriving DecidableEq, Repr

/-- All objects of a program. -/
structure World (K : Type) where
  heap : List (RingObj K)
  systems : List (SysObj K)
  deriving DecidableEq, Repr

section
variable {K : Type} [Field K] [LinearOrder K]

/-- The ring that a reference stands for. -/
def World.ring (w : World K) (ref : ℕ) : RingObj K :=
  w.heap[ref]?.getD ⟨.nan, .nan, .nan, .nan, .nan⟩

/-- What the methods of a system see: its rings by value. -/
def World.view (w : World K) (s : SysObj K) : RSys K :=
  ⟨s.planet, s.inclination, s.tilt, s.rings.map w.ring⟩

/-- A new system whose rings are the newly made objects `rings`. -/
def World.alloc (w : World K) (rings : List (RingObj K)) : World K × List ℕ :=
  (⟨w.heap ++ rings, w.systems⟩, List.range' w.heap.length rings.length)

/-- A statement of a program that uses rings and ring systems.  Systems and rings are named by
their number in order of creation; a statement about one that does not exist does nothing. -/
inductive WorldOp (K : Type)
  /-- `Ring(...)`, Ring.py L18-48 -/
  | newRing (inner outer transmission inclination tilt : PyVal K)
  /-- assignment to an attribute of a `Ring` -/
  | editRing (ref : ℕ) (op : RingOp K)
  /-- `RingSystem(...)`, RingSystem.py L36-79 -/
  | newSystem (planet inner outer transmissions inclination tilt : PyVal K)
  /-- assignment to the plain attribute `inclination` of a `RingSystem`, RingSystem.py L73 -/
  | setInclination (sys : ℕ) (x : XF K)
  /-- assignment to the plain attribute `tilt` of a `RingSystem`, RingSystem.py L75 -/
  | setTilt (sys : ℕ) (x : XF K)
  | add (sys : ℕ) (index : PyVal K) (ref : ℕ)
  | remove (sys : ℕ) (index : PyVal K)
  | replace (sys : ℕ) (index : PyVal K) (ref : ℕ)
  | split (sys : ℕ) (numDivisions : PyVal K)
  | merge (sys : ℕ) (tolerance : XF K)

/-- `add_ring` on objects, RingSystem.py L438-462. -/
def World.add (w : World K) (k : ℕ) (index : PyVal K) (ref : ℕ) : World K :=
  match w.systems[k]?, w.heap[ref]? with
  | some s, some r =>
    let out := addRing index ⟨w.view s, r⟩
    match out.1 with
    | .ok _ => ⟨w.heap.set ref out.2.ring,
        w.systems.set k { s with rings := s.rings.insertIdx index.toInt.toNat ref }⟩
    | .error _ => ⟨w.heap.set ref out.2.ring, w.systems⟩
  | _, _ => w

/-- `replace_ring` on objects, RingSystem.py L484-509. -/
def World.replace (w : World K) (k : ℕ) (index : PyVal K) (ref : ℕ) : World K :=
  match w.systems[k]?, w.heap[ref]? with
  | some s, some r =>
    let out := replaceRing index ⟨w.view s, r⟩
    match out.1 with
    | .ok _ => ⟨w.heap.set ref out.2.ring,
        w.systems.set k { s with rings := npAssign s.rings index ref }⟩
    | .error _ => ⟨w.heap.set ref out.2.ring, w.systems⟩
  | _, _ => w

/-- `remove_ring` on objects, RingSystem.py L464-482. -/
def World.remove (w : World K) (k : ℕ) (index : PyVal K) : World K :=
  match w.systems[k]? with
  | some s =>
    match (removeRing index (w.view s)).1 with
    | .ok _ => ⟨w.heap,
        w.systems.set k { s with rings := s.rings.eraseIdx index.toInt.toNat }⟩
    | .error _ => w
  | none => w

/-- A method that replaces all rings by new objects (`split_rings`, `merge_rings`). -/
def World.renew (w : World K) (k : ℕ) (m : Meth (RSys K) Unit) : World K :=
  match w.systems[k]? with
  | some s =>
    match m (w.view s) with
    | (.ok _, s') =>
      let a := w.alloc s'.rings
      { a.1 with systems := w.systems.set k { s with rings := a.2 } }
    | (.error _, _) => w
  | none => w

/-- The effect of one statement; exceptions are caught by the program. -/
def WorldOp.exec [FloorRing K] (w : World K) : WorldOp K → World K
  | .newRing i o t inc p =>
    match Beyonce.newRing i o t inc p with
    | .ok r => { w with heap := w.heap ++ [r] }
    | .error _ => w
  | .editRing ref op =>
    match w.heap[ref]? with
    | some r => { w with heap := w.heap.set ref (op.run r).2 }
    | none => w
  | .newSystem p i o t inc phi =>
    match Beyonce.newSystem p i o t inc phi with
    | .ok s =>
      let a := w.alloc s.rings
      { a.1 with systems := w.systems ++ [⟨s.planet, s.inclination, s.tilt, a.2⟩] }
    | .error _ => w
  | .setInclination k x =>
    { w with systems := w.systems.modify k fun s => { s with inclination := x } }
  | .setTilt k x => { w with systems := w.systems.modify k fun s => { s with tilt := x } }
  | .add k i ref => w.add k i ref
  | .remove k i => w.remove k i
  | .replace k i ref => w.replace k i ref
  | .split k nd => w.renew k (splitRings id nd)
  | .merge k tol => w.renew k (mergeRings id tol)

/-- The effect of a program on the objects it starts with. -/
def runWorld [FloorRing K] (ops : List (WorldOp K)) (w : World K) : World K :=
  ops.foldl WorldOp.exec w

end
end Beyonce
