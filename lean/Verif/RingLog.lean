import Verif.RingDraw

/-!
# What a ring system prints and logs, `/repo/RingSystem.py` L82-221 and the `logger` calls

A text holds the numbers that are put into it, in their order; the digits that the format leaves of
them and the padding are in `Texts.lean`.  A system with its log is a `LogState`; the methods are those of
`RingSystem` with the `logger` calls where the code has them.
-/

namespace Beyonce

section
variable {K : Type}

/-- A line of the table of rings: the number of the ring, its radii and its transmission. -/
structure RingLine (K : Type) where
  number : ℕ
  inner : XF K
  outer : XF K
  transmission : XF K
  deriving DecidableEq, Repr

/-- The text of a `RingSystem`. -/
structure SysReport (K : Type) where
  planet : XF K
  inclination : XF K
  tilt : XF K
  lines : List (RingLine K)
  deriving DecidableEq, Repr

/-- The loop of RingSystem.py L133-145, `zip(*self.get_rings_data())` with a running number. -/
def ringLines : ℕ → List (XF K) → List (XF K) → List (XF K) → List (RingLine K)
  | n, i :: is, o :: os, t :: ts => ⟨n, i, o, t⟩ :: ringLines (n + 1) is os ts
  | _, _, _, _ => []

/-- RingSystem.py L94-153 `__repr__` (and L82-92 `__str__`). -/
def RSys.report (s : RSys K) : SysReport K :=
  ⟨s.planet, s.inclination, s.tilt,
    ringLines 1 s.ringsData.1.data s.ringsData.2.1.data s.ringsData.2.2.data⟩

/-- The two angles that a ring system imposes on its rings. -/
inductive Angle
  | inclination | tilt
  deriving DecidableEq, Repr

/-- A message handed to the logger. -/
inductive LogMsg (K : Type)
  /-- L424-426 and L428-430: `ring inclination overridden from … to …` -/
  | overridden (what : Angle) (old new : XF K)
  /-- the texts of `_print_changes` before and after, L188-221 -/
  | changed (action : String) (before after : SysReport K)
  /-- L462 -/
  | added (index : PyVal K)
  /-- L482 -/
  | removed (index : PyVal K)
  /-- L509 -/
  | replaced (index : PyVal K)
  /-- L558-559 -/
  | split (old new : ℕ)
  /-- L608 -/
  | merged (old new : ℕ)

/-- The level of a message: `logger.info` or `logger.debug`. -/
def LogMsg.level : LogMsg K → ℤ
  | .changed _ _ _ => 10
  | _ => 20

/-- A system, the ring that the caller passes to its methods, and the messages so far. -/
structure LogState (K : Type) where
  sys : RSys K
  ring : RingObj K
  log : List (LogMsg K)

/-- A call of the logger. -/
def emit (m : LogMsg K) : Meth (LogState K) Unit :=
  Meth.modify fun st => { st with log := st.log ++ [m] }

variable [Field K] [LinearOrder K]

/-- The messages of RingSystem.py L424-430; `!=` between floats. -/
def overrideMsgs (s : RSys K) (r : RingObj K) : List (LogMsg K) :=
  (if XF.eqb r.inclination s.inclination then []
    else [.overridden .inclination r.inclination s.inclination]) ++
  (if XF.eqb r.tilt s.tilt then [] else [.overridden .tilt r.tilt s.tilt])

/-- RingSystem.py L408-436 `_override_ring_geometry` with its messages. -/
def overrideLogged : Meth (LogState K) Unit := fun st =>
  let r := overrideCallersRing ⟨st.sys, st.ring⟩
  (r.1, ⟨r.2.sys, r.2.ring, st.log ++ overrideMsgs st.sys st.ring⟩)

/-- A change of the rings between two calls of `_print_changes`, with the message. -/
def changeRings (action : String) (rings : Except Err (List (RingObj K))) :
    Meth (LogState K) Unit := do
  let st ← Meth.get
  let rs ← Meth.lift rings
  Meth.modify fun st => { st with sys := { st.sys with rings := rs } }
  let st' ← Meth.get
  emit (.changed action st.sys.report st'.sys.report)

/-- RingSystem.py L438-462 `add_ring`. -/
def addRingLogged (index : PyVal K) : Meth (LogState K) Unit := do
  let st ← Meth.get
  Meth.lift (preventOverlap st.sys index st.ring)
  overrideLogged
  let st ← Meth.get
  changeRings "add_ring()" (.ok (st.sys.rings.insertIdx index.toInt.toNat st.ring))
  emit (.added index)

/-- RingSystem.py L464-482 `remove_ring`. -/
def removeRingLogged (index : PyVal K) : Meth (LogState K) Unit := do
  let st ← Meth.get
  let _ ← Meth.lift (number index (.bool true) (.int 0) (.int ((st.sys.rings.length : ℤ) - 1)))
  changeRings "remove_ring()" (npDelete st.sys.rings index)
  emit (.removed index)

/-- RingSystem.py L484-509 `replace_ring`. -/
def replaceRingLogged (index : PyVal K) : Meth (LogState K) Unit := do
  let st ← Meth.get
  let _ ← Meth.lift (number index (.bool true) (.int 0) (.int ((st.sys.rings.length : ℤ) - 1)))
  Meth.lift (preventOverlap st.sys index st.ring true)
  overrideLogged
  let st ← Meth.get
  changeRings "replace_ring()" (.ok (npAssign st.sys.rings index st.ring))
  emit (.replaced index)

/-- RingSystem.py L511-559 `split_rings`. -/
def splitRingsLogged [FloorRing K] (rnd : K → K) (nd : PyVal K) : Meth (LogState K) Unit := do
  let st ← Meth.get
  let ds ← Meth.lift (divisions st.sys nd)
  changeRings "split_rings()" (splitLoop rnd st.sys (st.sys.rings.zip ds))
  emit (.split ds.length ds.sum)

/-- RingSystem.py L561-608 `merge_rings`. -/
def mergeRingsLogged (rnd : K → K) (tol : XF K) : Meth (LogState K) Unit := do
  let st ← Meth.get
  let first ← Meth.lift (match st.sys.rings with
    | [] => .error .indexError
    | r :: _ => .ok r)
  changeRings "merge_rings()"
    (mergeLoop rnd st.sys tol first.inner first.inner first.transmission st.sys.rings)
  let st' ← Meth.get
  emit (.merged st.sys.rings.length st'.sys.rings.length)

end

/-! ## Loggers -/

/-- A `logging.Logger`: its level and the levels of its console handlers. -/
structure Logger where
  level : ℤ
  handlers : List ℤ
  deriving DecidableEq, Repr

/-- The process: the names `str(np.random.normal(0, 1))` that the global random generator will give,
how many were drawn, and the loggers of the `logging` module by name. -/
structure LogWorld (N : Type) where
  draws : ℕ → N
  drawn : ℕ
  loggers : N → Option Logger

section
variable {K N : Type} [Field K] [LinearOrder K] [DecidableEq N]

/-- RingSystem.py L155-186 `_set_logger`.  `logging.getLogger` makes a logger only if there is none
of this name. -/
def setLogger (level : PyVal K) : Meth (LogWorld N) N := do
  let v ← Meth.lift (number level (.bool true) (.int 10) (.int 50))
  let w ← Meth.get
  let name := w.draws w.drawn
  let handlers := match w.loggers name with
    | some l => l.handlers
    | none => []
  let logger : Logger := ⟨v.toInt, handlers ++ [v.toInt]⟩
  Meth.modify fun w =>
    { w with drawn := w.drawn + 1, loggers := fun n => if n = name then some logger else w.loggers n }
  Meth.lift (.ok name)

/-- RingSystem.py L36-79 `__init__` with the logger: the system and the name of its logger. -/
def newSystemLogged (planet innerRadii outerRadii transmissions inclination tilt level : PyVal K) :
    Meth (LogWorld N) (RSys K × N) := do
  let s ← Meth.lift (newSystem planet innerRadii outerRadii transmissions inclination tilt)
  let name ← setLogger level
  Meth.lift (.ok (s, name))

/-- How often a message of a level is written to the console through a logger (`propagate` is
`False`). -/
def copies (w : LogWorld N) (name : N) (level : ℤ) : ℕ :=
  match w.loggers name with
  | none => 0
  | some l => if level < l.level then 0 else (l.handlers.filter fun h => decide (h ≤ level)).length

end

end Beyonce
