import Verif.ShallotLog
import Verif.Props.Solutions
import Verif.Props.Closest
import Verif.Props.Measured

/-!
# C98: the log of a grid tells what happened
-/

set_option linter.unusedSectionVars false

namespace Beyonce
open Spec

section
variable {K α β : Type}

/-! ## Methods with messages -/

/-- The method with messages ends as the one without, and leaves the same grid. -/
def Follows (m : Meth (GLog K) α) (p : Meth (Shallot K) α) : Prop :=
  ∀ st, (m st).1 = (p st.grid).1 ∧ (m st).2.grid = (p st.grid).2

theorem Follows.quiet (p : Meth (Shallot K) α) : Follows (GLog.quiet p) p := fun _ => ⟨rfl, rfl⟩

theorem Follows.pure (a : α) : Follows (pure a : Meth (GLog K) α) (pure a) := fun _ => ⟨rfl, rfl⟩

theorem Follows.lift (e : Except Err α) : Follows (Meth.lift e : Meth (GLog K) α) (Meth.lift e) :=
  fun _ => ⟨rfl, rfl⟩

theorem Follows.throw (e : Err) : Follows (Meth.throw e : Meth (GLog K) α) (Meth.throw e) :=
  fun _ => ⟨rfl, rfl⟩

theorem Follows.say (m : GridMsg K) : Follows (GLog.say m) (Pure.pure ()) := fun _ => ⟨rfl, rfl⟩

theorem Follows.bind {m : Meth (GLog K) α} {p : Meth (Shallot K) α} {f : α → Meth (GLog K) β}
    {q : α → Meth (Shallot K) β} (h : Follows m p) (hf : ∀ a, Follows (f a) (q a)) :
    Follows (m >>= f) (p >>= q) := by
  intro st
  have h1 := h st
  rcases hm : m st with ⟨e | a, st'⟩ <;> rcases hp : p st.grid with ⟨e' | a', s'⟩ <;>
    simp only [hm, hp] at h1
  · rw [bind_err _ _ _ _ _ hm, bind_err _ _ _ _ _ hp]
    simpa using h1
  · simp at h1
  · simp at h1
  · obtain ⟨h1, rfl⟩ := h1
    injection h1 with h1
    subst h1
    rw [bind_ok _ _ _ _ _ hm, bind_ok _ _ _ _ _ hp]
    exact hf _ st'

theorem Follows.self {f : Shallot K → Meth (GLog K) β} {q : Shallot K → Meth (Shallot K) β}
    (hf : ∀ s, Follows (f s) (q s)) : Follows (GLog.self >>= f) (Meth.get >>= q) :=
  fun st => hf st.grid st

theorem Follows.say_bind {m : GridMsg K} {f : Unit → Meth (GLog K) β} {q : Meth (Shallot K) β}
    (hf : Follows (f ()) q) : Follows (GLog.say m >>= f) q :=
  fun st => hf ⟨st.grid, st.log ++ [m]⟩

theorem Follows.ite {c : Prop} [Decidable c] {m m' : Meth (GLog K) α} {p p' : Meth (Shallot K) α}
    (h : Follows m p) (h' : Follows m' p') : Follows (if c then m else m') (if c then p else p') := by
  split_ifs
  · exact h
  · exact h'

theorem Follows.modify (f : Shallot K → Shallot K) :
    Follows (GLog.quiet (Meth.modify f)) (Meth.modify f) := .quiet _

end

section
variable {K : Type} [Field K] [LinearOrder K] [IsStrictOrderedRing K] [RealFns K] [FloorRing K]

/-! ## Calls with and without a log -/

/-- What a call returns. -/
def GridOp.Result : GridOp K → Type
  | .get .. => Nd K
  | .getFit .. => Option (Nd K)
  | .getGradients .. => Shallot.Gradients K
  | .point .. => Shallot.Point K
  | .closest .. => Shallot.Closest K
  | .extract .. => List (Shallot.Solution K)
  | _ => Unit

/-- The call. -/
def GridOp.call : (op : GridOp K) → Meth (Shallot K) op.Result
  | .get c v w => Shallot.getCube c v w
  | .getFit v w => Shallot.getGradientFit v w
  | .getGradients v w => Shallot.getGradients v w
  | .point y x r v => Shallot.gridPoint y x r v
  | .closest a b c d v => Shallot.closestPoint a b c d v
  | .hill h => Shallot.hillMask h
  | .diagnose => Shallot.diagnose
  | .add a b c d => Shallot.addGradients a b c d
  | .remove v => Shallot.removeGradients v
  | .eclipse a b c => Shallot.setEclipseParameters a b c
  | .update a b c => Shallot.updateScaling a b c
  | .fit w => Shallot.determineFit w
  | .extract n => Shallot.extractSolutions n

/-- The call with its messages. -/
def GridOp.logged : (op : GridOp K) → Meth (GLog K) op.Result
  | .get c v w => GLog.quiet (Shallot.getCube c v w)
  | .getFit v w => GLog.getGradientFit v w
  | .getGradients v w => GLog.quiet (Shallot.getGradients v w)
  | .point y x r v => GLog.quiet (Shallot.gridPoint y x r v)
  | .closest a b c d v => GLog.closestPoint a b c d v
  | .hill h => GLog.quiet (Shallot.hillMask h)
  | .diagnose => GLog.diagnose
  | .add a b c d => GLog.addGradients a b c d
  | .remove v => GLog.removeGradients v
  | .eclipse a b c => GLog.setEclipseParameters a b c
  | .update a b c => GLog.updateScaling a b c
  | .fit w => GLog.determineFit w
  | .extract n => GLog.extractSolutions n

theorem call_exec (op : GridOp K) (s : Shallot K) : (op.call s).2 = op.exec s := by
  cases op <;> rfl

/-- A sequence of calls with a log; exceptions are caught. -/
def runGridLog (ops : List (GridOp K)) (st : GLog K) : GLog K :=
  ops.foldl (fun st op => (op.logged st).2) st

/-! ## The log changes nothing -/

theorem resetFit_follows : Follows (GLog.resetFit (K := K)) Shallot.resetFit := by
  intro st
  unfold GLog.resetFit Shallot.resetFit
  rcases st with ⟨s, log⟩
  rcases h : s.gradientFit with _ | p
  · have e : s = { s with gradientFit := none } := by rw [← h]
    refine ⟨?_, ?_⟩
    · simp [GLog.self, Meth.bind_apply, h, Meth.modify]
    · simp [GLog.self, Meth.bind_apply, h, Meth.modify, ← e]
  · refine ⟨?_, ?_⟩ <;> simp [GLog.self, Meth.bind_apply, h, Meth.modify, GLog.quiet, GLog.say]

theorem getGradientFit_follows (v w : PyVal K) :
    Follows (GLog.getGradientFit v w) (Shallot.getGradientFit v w) := by
  refine .self fun s => .ite ?_ ?_
  · exact .say_bind (.pure _)
  · exact .bind (.quiet _) fun _ => .pure _

theorem closestPoint_follows (a b c d v : PyVal K) :
    Follows (GLog.closestPoint a b c d v) (Shallot.closestPoint a b c d v) := by
  refine .bind (.lift _) fun radius => .bind (.lift _) fun inclination => .bind (.lift _) fun tilt =>
    .bind (.lift _) fun impact => .bind (.lift _) fun m => .bind (.quiet _) fun gr =>
    .bind (.quiet _) fun gi => .bind (.quiet _) fun gt => .self fun s => ?_
  intro st
  dsimp only
  rcases Shallot.closestOf s.params (Shallot.distances radius.num inclination.num tilt.num impact.num
    s.params.dy.data s.params.gridShape.1 s.params.gridShape.2.1 s.params.gridShape.2.2 gr gi gt)
    with e | c
  · exact ⟨rfl, rfl⟩
  · exact ⟨rfl, rfl⟩

theorem diagnose_follows : Follows (GLog.diagnose (K := K)) Shallot.diagnose := by
  intro st
  have h3 := Follows.quiet (Shallot.diagnose (K := K)) st
  unfold GLog.diagnose
  rcases bind_cases (GLog.quiet (Shallot.diagnose (K := K))) (fun _ => GLog.self >>= fun s =>
    GLog.say (.deviation (GLog.largest s))) st with ⟨a, s', h1, h2⟩ | ⟨e, s', h1, h2⟩
  all_goals
    rw [h1] at h3
    exact ⟨(congrArg Prod.fst h2).trans h3.1, (congrArg (fun p => p.2.grid) h2).trans h3.2⟩

theorem addGradients_follows (a b c d : PyVal K) :
    Follows (GLog.addGradients a b c d) (Shallot.addGradients a b c d) := by
  refine .self fun s => .ite ?_ (.say _)
  refine .bind (.lift _) fun t => .bind (.lift _) fun l => .bind (.lift _) fun _ => ?_
  refine .say_bind ?_
  exact .bind (.lift _) fun _ => .bind (.quiet _) fun _ => .bind (.quiet _) fun _ => resetFit_follows

theorem removeGradients_follows (v : PyVal K) :
    Follows (GLog.removeGradients v) (Shallot.removeGradients v) := by
  refine .self fun s => ?_
  rcases s.gradients with _ | l
  · exact .say _
  · exact .bind (.lift _) fun _ => .bind (.quiet _) fun _ => resetFit_follows

theorem setEclipse_follows (a b c : PyVal K) :
    Follows (GLog.setEclipseParameters a b c) (Shallot.setEclipseParameters a b c) := by
  refine .bind (.quiet _) fun _ => .self fun s => ?_
  rcases s.gradients with _ | l
  · exact .pure _
  · exact .bind (.modify _) fun _ => .say_bind resetFit_follows

theorem updateScaling_follows (a b c : PyVal K) :
    Follows (GLog.updateScaling a b c) (Shallot.updateScaling a b c) := by
  refine .bind (.modify _) fun _ => .self fun s => .bind (.lift _) fun t => .ite (.say _) ?_
  rcases s.gradients with _ | l
  · exact .throw _
  · exact .bind (.quiet _) fun _ => resetFit_follows

theorem determineFit_follows (w : Bool) :
    Follows (K := K) (GLog.determineFit w) (Shallot.determineFit w) := by
  refine .self fun s => ?_
  rcases s.gradients with _ | l
  · exact .say _
  · refine .say_bind ?_
    exact .bind (.lift _) fun _ => .bind (.lift _) fun _ => .bind (.modify _) fun _ => .quiet _

theorem extractSolutions_follows (n : PyVal K) :
    Follows (GLog.extractSolutions n) (Shallot.extractSolutions n) := by
  refine .self fun s => .bind (.lift _) fun m => .bind (.lift _) fun n => ?_
  refine .say_bind ?_
  exact .bind (getGradientFit_follows _ _) fun _ => .quiet _

theorem logged_follows (op : GridOp K) : Follows op.logged op.call := by
  cases op with
  | getFit v w => exact getGradientFit_follows v w
  | closest a b c d v => exact closestPoint_follows a b c d v
  | diagnose => exact diagnose_follows
  | add a b c d => exact addGradients_follows a b c d
  | remove v => exact removeGradients_follows v
  | eclipse a b c => exact setEclipse_follows a b c
  | update a b c => exact updateScaling_follows a b c
  | fit w => exact determineFit_follows w
  | extract n => exact extractSolutions_follows n
  | _ => exact .quiet _

/-- Every call ends with a log as it does without, and leaves the same grid. -/
theorem C98_transparent (op : GridOp K) (st : GLog K) :
    (op.logged st).1 = (op.call st.grid).1 ∧ (op.logged st).2.grid = op.exec st.grid := by
  rw [← call_exec]
  exact logged_follows op st

theorem runGridLog_grid (ops : List (GridOp K)) (st : GLog K) :
    (runGridLog ops st).grid = runGrid ops st.grid := by
  induction ops generalizing st with
  | nil => rfl
  | cons op ops ih =>
    show (runGridLog ops (op.logged st).2).grid = runGrid ops (op.exec st.grid)
    rw [ih, (C98_transparent op st).2]

/-! ## Balances -/

/-- The messages so far remain. -/
def Grows (st st' : GLog K) : Prop := st.log <+: st'.log

theorem Grows.pre : Pre (Grows (K := K)) := ⟨fun _ => List.prefix_refl _, fun h h' => h.trans h'⟩

/-- How often the fit went, and whether it is there. -/
def fitCount (st : GLog K) : ℕ := st.log.count .cleared + st.grid.gradientFit.isSome.toNat

/-- How often the gradients went, and whether they are there. -/
def gradCount (st : GLog K) : ℕ := st.log.count .dropped + st.grid.gradients.isSome.toNat

/-- The numbers of gradients that were said to be added. -/
def addedCount (log : List (GridMsg K)) : ℕ :=
  (log.map fun m => match m with
    | .adding n => n
    | _ => 0).sum

/-- How many gradients there are. -/
def Spec.numGradients (s : Shallot K) : ℕ := (s.gradients.getD []).length

/-- The balances that most parts of methods keep. -/
structure Balanced (st st' : GLog K) : Prop where
  grows : Grows st st'
  fit : fitCount st' = fitCount st
  grad : gradCount st' = gradCount st
  added : addedCount st'.log = addedCount st.log
  number : numGradients st'.grid ≤ numGradients st.grid

theorem Balanced.pre : Pre (Balanced (K := K)) :=
  ⟨fun _ => ⟨List.prefix_refl _, rfl, rfl, rfl, le_rfl⟩, fun h h' => ⟨h.1.trans h'.1, h'.2.trans h.2,
    h'.3.trans h.3, h'.4.trans h.4, h'.5.trans h.5⟩⟩

/-- The fit and the gradients are as present as before. -/
structure Present (s s' : Shallot K) : Prop where
  fit : s'.gradientFit.isSome = s.gradientFit.isSome
  grad : s'.gradients.isSome = s.gradients.isSome
  number : numGradients s' ≤ numGradients s

theorem Present.pre : Pre (Present (K := K)) :=
  ⟨fun _ => ⟨rfl, rfl, le_rfl⟩, fun h h' => ⟨h'.1.trans h.1, h'.2.trans h.2, h'.3.trans h.3⟩⟩

theorem Spec.Pale.present {s s' : Shallot K} (h : Pale s s') : Present s s' := by
  have h2 : s'.gradients.isSome = s.gradients.isSome ∧ numGradients s' ≤ numGradients s := by
    unfold numGradients
    rcases h.gradients with ⟨a, b⟩ | ⟨l, l', a, b, c⟩
    · rw [a, b]; exact ⟨rfl, le_rfl⟩
    · rw [a, b]; exact ⟨rfl, c.length_eq.ge⟩
  refine ⟨?_, h2.1, h2.2⟩
  rcases h.fit with ⟨a, b⟩ | ⟨p, p', a, b, -⟩ <;> rw [a, b]
  rfl

theorem quiet_at {α : Type} {m : Meth (Shallot K) α} {st : GLog K} (h : Present st.grid (m st.grid).2) :
    Balanced st (GLog.quiet m st).2 := by
  refine ⟨List.prefix_refl _, ?_, ?_, rfl, h.number⟩
  · show st.log.count _ + (m st.grid).2.gradientFit.isSome.toNat = _
    rw [h.fit]; rfl
  · show st.log.count _ + (m st.grid).2.gradients.isSome.toNat = _
    rw [h.grad]; rfl

theorem quiet_balanced {α : Type} {m : Meth (Shallot K) α} (h : Moves Present m) :
    Moves Balanced (GLog.quiet m) := fun st => quiet_at (h st.grid)

/-- A message that keeps no account. -/
def Plainly (m : GridMsg K) : Prop := m ≠ .cleared ∧ m ≠ .dropped ∧ ∀ n, m ≠ .adding n

theorem say_balanced {m : GridMsg K} (h : Plainly m) : Moves Balanced (GLog.say m) := by
  intro st
  refine ⟨List.prefix_append _ _, ?_, ?_, ?_, le_rfl⟩
  · simp [fitCount, GLog.say, Meth.modify, List.count_append, h.1]
  · simp [gradCount, GLog.say, Meth.modify, List.count_append, h.2.1]
  · have := h.2.2
    cases m <;> simp_all [addedCount, GLog.say, Meth.modify]

theorem self_balanced : Moves Balanced (GLog.self (K := K)) := fun _ => Balanced.pre.refl _

theorem resetFit_log (st : GLog K) : (GLog.resetFit st).2 =
    ⟨{ st.grid with gradientFit := none },
      st.log ++ if st.grid.gradientFit.isSome then [.cleared] else []⟩ := by
  unfold GLog.resetFit
  rcases st with ⟨s, log⟩
  rcases h : s.gradientFit with _ | p
  · have e : s = { s with gradientFit := none } := by rw [← h]
    simp [GLog.self, Meth.bind_apply, h, ← e]
  · simp [GLog.self, Meth.bind_apply, h, Meth.modify, GLog.quiet, GLog.say]

theorem resetFit_balanced : Moves Balanced (GLog.resetFit (K := K)) := by
  intro st
  rw [resetFit_log]
  refine ⟨List.prefix_append _ _, ?_, ?_, ?_, le_rfl⟩
  · rcases h : st.grid.gradientFit with _ | p <;> simp [fitCount, h]
  · rcases h : st.grid.gradientFit with _ | p <;> simp [gradCount, h]
  · rcases h : st.grid.gradientFit with _ | p <;> simp [addedCount, h]

theorem onGradient_present {α : Type} (k : ℕ) (m : Meth (GGrad K) α) :
    Moves Present (Shallot.onGradient k m) := by
  intro s
  unfold Shallot.onGradient
  rcases h : s.gradients with _ | l
  · simpa using Present.pre.refl s
  · simp only [Option.getD_some]
    rcases h' : l[k]? with _ | g
    · exact Present.pre.refl s
    · exact ⟨rfl, by simp [h], by simp [numGradients, h]⟩

theorem rescaleLoop_present (u : Bool) (t : Option (List (XF K))) :
    ∀ n k, Moves Present (Shallot.rescaleLoop u t n k)
  | 0, _ => Moves.pure Present.pre _
  | n + 1, k => by
    unfold Shallot.rescaleLoop
    refine Moves.bind Present.pre (Moves.get Present.pre) fun s => ?_
    rcases (s.gradients.getD [])[k]? with _ | g
    · exact Moves.pure Present.pre _
    · exact Moves.bind Present.pre (Moves.lift Present.pre _) fun _ =>
        Moves.bind Present.pre (onGradient_present _ _) fun _ => rescaleLoop_present u t n (k + 1)

theorem measureLoop_present (scale : PyVal K) : ∀ ms k, Moves Present (Shallot.measureLoop scale k ms)
  | [], _ => Moves.pure Present.pre _
  | (m, e, t) :: ms, k => by
    unfold Shallot.measureLoop
    refine Moves.bind Present.pre (Moves.get Present.pre) fun s => ?_
    split_ifs
    · exact Moves.bind Present.pre (onGradient_present _ _) fun _ => measureLoop_present scale ms (k + 1)
    · exact Moves.pure Present.pre _

theorem setMeasured_present (l : NpArr K) (e t : PyVal K) : Moves Present (Shallot.setMeasured l e t) := by
  unfold Shallot.setMeasured
  exact Moves.bind Present.pre (Moves.lift Present.pre _) fun _ =>
    Moves.bind Present.pre (Moves.lift Present.pre _) fun _ =>
    Moves.bind Present.pre (Moves.lift Present.pre _) fun _ =>
    Moves.bind Present.pre (Moves.get Present.pre) fun _ =>
    Moves.bind Present.pre (Moves.lift Present.pre _) fun _ => measureLoop_present _ _ _

/-- The loop of `remove_gradients` on a grid with gradients. -/
theorem removeLoop_present : ∀ (is : List ℤ) (s : Shallot K), s.gradients.isSome = true →
    Present s (Shallot.removeLoop is s).2
  | [], s, _ => Present.pre.refl s
  | i :: is, s, h => by
    unfold Shallot.removeLoop
    simp only [Meth.get_bind]
    split_ifs
    · rw [bind_ok _ _ _ _ () (Meth.set_apply _ _)]
      refine Present.pre.trans (b := { s with gradients := some ((s.gradients.getD []).eraseIdx i.toNat) })
        ⟨rfl, ?_, ?_⟩ (removeLoop_present is _ rfl)
      · simp [h]
      · simp only [numGradients, Option.getD_some]
        exact List.length_eraseIdx_le _ _
    · exact Present.pre.refl s

theorem storeEclipse_present (a b c : PyVal K) : Moves Present (Shallot.storeEclipse a b c) := by
  unfold Shallot.storeEclipse
  exact Moves.bind Present.pre (Moves.lift Present.pre _) fun _ =>
    Moves.bind Present.pre (Moves.modify fun _ => ⟨rfl, rfl, le_rfl⟩) fun _ =>
    Moves.bind Present.pre (Moves.lift Present.pre _) fun _ =>
    Moves.bind Present.pre (Moves.modify fun _ => ⟨rfl, rfl, le_rfl⟩) fun _ =>
    Moves.bind Present.pre (Moves.lift Present.pre _) fun _ =>
    (Moves.modify fun _ => ⟨rfl, rfl, le_rfl⟩)

theorem getGradientFit_balanced (v w : PyVal K) : Moves Balanced (GLog.getGradientFit v w) := by
  unfold GLog.getGradientFit
  refine Moves.bind Balanced.pre self_balanced fun s => ?_
  split_ifs
  · exact Moves.bind Balanced.pre (say_balanced ⟨by simp, by simp, by simp⟩) fun _ => Moves.pure Balanced.pre _
  · exact Moves.bind Balanced.pre (quiet_balanced fun s => (getCube_faded _ _ _ s).pale.present) fun _ =>
      Moves.pure Balanced.pre _

/-- All calls but adding gradients and determining the fit. -/
theorem logged_balanced (op : GridOp K) (ha : ∀ a b c d, op ≠ .add a b c d) (hf : ∀ w, op ≠ .fit w) :
    Moves Balanced op.logged := by
  have B := Balanced.pre (K := K)
  cases op with
  | get c v w => exact quiet_balanced fun s => (getCube_faded c v w s).pale.present
  | getFit v w => exact getGradientFit_balanced v w
  | getGradients v w => exact quiet_balanced fun s => (getGradients_faded v w s).pale.present
  | point y x r v => exact quiet_balanced fun s => (gridPoint_faded y x r v s).pale.present
  | closest a b c d v =>
    show Moves Balanced (GLog.closestPoint a b c d v)
    unfold GLog.closestPoint
    refine Moves.bind B (Moves.lift B _) fun _ => Moves.bind B (Moves.lift B _) fun _ =>
      Moves.bind B (Moves.lift B _) fun _ => Moves.bind B (Moves.lift B _) fun _ =>
      Moves.bind B (Moves.lift B _) fun _ =>
      Moves.bind B (quiet_balanced fun s => (getCube_faded _ _ _ s).pale.present) fun _ =>
      Moves.bind B (quiet_balanced fun s => (getCube_faded _ _ _ s).pale.present) fun _ =>
      Moves.bind B (quiet_balanced fun s => (getCube_faded _ _ _ s).pale.present) fun _ =>
      Moves.bind B self_balanced fun _ => Moves.bind B (Moves.lift B _) fun _ => ?_
    exact Moves.bind B (say_balanced ⟨by simp, by simp, by simp⟩) fun _ =>
      Moves.bind B (say_balanced ⟨by simp, by simp, by simp⟩) fun _ =>
      Moves.bind B (say_balanced ⟨by simp, by simp, by simp⟩) fun _ =>
      Moves.bind B (say_balanced ⟨by simp, by simp, by simp⟩) fun _ =>
      Moves.bind B (say_balanced ⟨by simp, by simp, by simp⟩) fun _ =>
      Moves.bind B (say_balanced ⟨by simp, by simp, by simp⟩) fun _ => Moves.pure B _
  | hill h => exact quiet_balanced fun s => (hillMask_pale h s).present
  | diagnose =>
    show Moves Balanced GLog.diagnose
    unfold GLog.diagnose
    exact Moves.bind B (quiet_balanced fun s => (diagnose_pale s).present) fun _ =>
      Moves.bind B self_balanced fun _ => say_balanced ⟨by simp, by simp, by simp⟩
  | add a b c d => exact absurd rfl (ha a b c d)
  | remove v =>
    show Moves Balanced (GLog.removeGradients v)
    unfold GLog.removeGradients
    intro st
    show Balanced st ((match st.grid.gradients with
      | none => _
      | some l => _ : Meth (GLog K) Unit) st).2
    rcases hg : st.grid.gradients with _ | l
    · exact say_balanced ⟨by simp, by simp, by simp⟩ st
    · simp only
      rcases array v (lower := .int 0) (upper := .int ((l.length : ℤ) - 1))
        (dtype := .str "int64") (numDimensions := .int 1) with e | arr
      · exact B.refl st
      · rw [Meth.lift_ok_bind]
        have h1 : Balanced st (GLog.quiet (Shallot.removeLoop ((Shallot.intsOf arr).mergeSort
          (fun i j => decide (i ≤ j))).reverse) st).2 := quiet_at (removeLoop_present _ st.grid (by simp [hg]))
        rcases bind_cases (GLog.quiet (Shallot.removeLoop ((Shallot.intsOf arr).mergeSort
          (fun i j => decide (i ≤ j))).reverse)) (fun _ => GLog.resetFit) st with
          ⟨a, st', h2, h3⟩ | ⟨e, st', h2, h3⟩
        · rw [h2] at h1
          rw [h3]
          exact B.trans h1 (resetFit_balanced st')
        · rw [h2] at h1
          rw [h3]
          exact h1
  | eclipse a b c =>
    show Moves Balanced (GLog.setEclipseParameters a b c)
    unfold GLog.setEclipseParameters
    refine Moves.bind B (quiet_balanced (storeEclipse_present a b c)) fun _ => ?_
    intro st
    show Balanced st ((match st.grid.gradients with
      | none => _
      | some l => _ : Meth (GLog K) Unit) st).2
    rcases hg : st.grid.gradients with _ | l
    · exact B.refl st
    · refine B.trans (b := ⟨{ st.grid with gradients := none }, st.log ++ [.dropped]⟩)
        ⟨List.prefix_append _ _, ?_, ?_, ?_, ?_⟩ (resetFit_balanced _)
      · simp [fitCount, List.count_append]
      · simp [gradCount, List.count_append, hg]
      · simp [addedCount]
      · simp [numGradients]
  | update a b c =>
    show Moves Balanced (GLog.updateScaling a b c)
    unfold GLog.updateScaling
    refine Moves.bind B (quiet_balanced (Moves.modify fun s => ⟨rfl, rfl, le_rfl⟩)) fun _ => ?_
    refine Moves.bind B self_balanced fun s => Moves.bind B (Moves.lift B _) fun t => ?_
    split_ifs
    · exact say_balanced ⟨by simp, by simp, by simp⟩
    · rcases s.gradients with _ | l
      · exact Moves.throw B _
      · exact Moves.bind B (quiet_balanced (rescaleLoop_present _ _ _ _)) fun _ => resetFit_balanced
  | fit w => exact absurd rfl (hf w)
  | extract n =>
    show Moves Balanced (GLog.extractSolutions n)
    unfold GLog.extractSolutions
    exact Moves.bind B self_balanced fun _ => Moves.bind B (Moves.lift B _) fun _ =>
      Moves.bind B (Moves.lift B _) fun _ => Moves.bind B (say_balanced ⟨by simp, by simp, by simp⟩) fun _ =>
      Moves.bind B (getGradientFit_balanced _ _) fun _ =>
      quiet_balanced fun s => (solutionLoop_pale _ s).present

/-! ## Adding gradients -/

/-- As many gradients as before. -/
def SameNumber (s s' : Shallot K) : Prop := numGradients s' = numGradients s

theorem SameNumber.pre : Pre (SameNumber (K := K)) := ⟨fun _ => rfl, fun h h' => h'.trans h⟩

theorem measureLoop_number (scale : PyVal K) : ∀ ms k, Moves SameNumber (Shallot.measureLoop scale k ms)
  | [], _ => Moves.pure SameNumber.pre _
  | (m, e, t) :: ms, k => by
    unfold Shallot.measureLoop
    refine Moves.bind SameNumber.pre (Moves.get SameNumber.pre) fun s => ?_
    split_ifs
    · refine Moves.bind SameNumber.pre (fun s => ?_) fun _ => measureLoop_number scale ms (k + 1)
      unfold Shallot.onGradient
      rcases h : (s.gradients.getD [])[k]? with _ | g
      · exact SameNumber.pre.refl s
      · simp [SameNumber, numGradients]
    · exact Moves.pure SameNumber.pre _

theorem setMeasured_number (l : NpArr K) (e t : PyVal K) :
    Moves SameNumber (Shallot.setMeasured l e t) := by
  have B := SameNumber.pre (K := K)
  unfold Shallot.setMeasured
  exact Moves.bind B (Moves.lift B _) fun _ => Moves.bind B (Moves.lift B _) fun _ =>
    Moves.bind B (Moves.lift B _) fun _ => Moves.bind B (Moves.get B) fun _ =>
    Moves.bind B (Moves.lift B _) fun _ => measureLoop_number _ _ _

theorem setMeasured_logged (l : NpArr K) (e t : PyVal K) (st : GLog K) :
    Balanced st ((GLog.quiet (Shallot.setMeasured l e t) >>= fun _ => GLog.resetFit) st).2 ∧
    numGradients ((GLog.quiet (Shallot.setMeasured l e t) >>= fun _ => GLog.resetFit) st).2.grid =
      numGradients st.grid ∧
    ((GLog.quiet (Shallot.setMeasured l e t) >>= fun _ => GLog.resetFit) st).2.grid.gradients.isSome =
      st.grid.gradients.isSome := by
  refine ⟨Moves.bind Balanced.pre (quiet_balanced (setMeasured_present l e t)) (fun _ => resetFit_balanced) st, ?_⟩
  have h := setMeasured_number l e t st.grid
  have hp := (setMeasured_present l e t st.grid).grad
  rcases bind_cases (GLog.quiet (Shallot.setMeasured l e t)) (fun _ => GLog.resetFit) st with
    ⟨a, st', h1, h2⟩ | ⟨er, st', h1, h2⟩
  all_goals
    rw [h2]
    have h3 : (Shallot.setMeasured l e t st.grid).2 = st'.grid := congrArg (fun p => p.2.grid) h1
    rw [h3] at h hp
  · rw [resetFit_log]
    exact ⟨h, hp⟩
  · exact ⟨h, hp⟩

theorem addGradients_logged (a b c d : PyVal K) (st : GLog K) :
    (GLog.addGradients a b c d st).2 = ⟨st.grid, st.log ++ [.missing]⟩ ∨
    (GLog.addGradients a b c d st).2 = st ∨
    ∃ (t : NpArr K) (v : PyVal K), a = .arr t ∧ st.grid.eclipseDuration = some v ∧
      (((GLog.addGradients a b c d st).2 = ⟨st.grid, st.log ++ [.adding t.data.length]⟩ ∧
          Shallot.quotientType v ≠ "float64") ∨
        ∃ gs : List (GGrad K), gs.length = t.data.length ∧
          Balanced ⟨{ st.grid with gradients := some (st.grid.gradients.getD [] ++ gs) },
            st.log ++ [.adding t.data.length]⟩ (GLog.addGradients a b c d st).2 ∧
          numGradients (GLog.addGradients a b c d st).2.grid =
            numGradients st.grid + t.data.length ∧
          (GLog.addGradients a b c d st).2.grid.gradients.isSome = true) := by
  rcases st with ⟨s, log⟩
  have h0 : GLog.addGradients a b c d ⟨s, log⟩ = (if s.ready then do
    let times ← Meth.lift (array a (dtype := .str "float64") (numDimensions := .int 1))
    let lc ← Meth.lift (array b (lower := .float (.fin 0)) (dtype := .str "float64")
      (numDimensions := .int 1))
    Meth.lift (sameShapeArrays [.arr times, .arr lc] 2)
    GLog.say (.adding times.data.length)
    let duration ← Meth.lift (needNumber s.eclipseDuration)
    GLog.quiet (Shallot.determineDiskGradients (Shallot.positionsOf times duration))
    GLog.quiet (Shallot.setMeasured lc c d)
    GLog.resetFit
  else GLog.say .missing : Meth (GLog K) Unit) ⟨s, log⟩ := rfl
  rw [h0]
  cases hready : s.ready with
  | false => left; rfl
  | true =>
    right
    rw [if_pos rfl]
    cases h1 : array a (dtype := .str "float64") (numDimensions := .int 1) with
    | error er => left; rfl
    | ok t =>
      rw [Meth.lift_ok_bind]
      cases h2 : array b (lower := .float (.fin 0)) (dtype := .str "float64")
        (numDimensions := .int 1) with
      | error er => left; rfl
      | ok l =>
        rw [Meth.lift_ok_bind]
        cases h3 : sameShapeArrays [.arr t, .arr l] 2 with
        | error er => left; rfl
        | ok u =>
          right
          rw [Meth.lift_ok_bind]
          obtain ⟨v, hv⟩ : ∃ v, s.eclipseDuration = some v := by
            rw [← Option.isSome_iff_exists]
            unfold Shallot.ready at hready
            simp only [Bool.and_eq_true] at hready
            exact hready.1.2
          obtain ⟨ha, ht, hf⟩ := (array1_ok a t).1 h1
          refine ⟨t, v, ha, hv, ?_⟩
          rw [bind_ok _ _ _ _ () (show GLog.say (.adding t.data.length) (⟨s, log⟩ : GLog K) =
            (.ok (), ⟨s, log ++ [.adding t.data.length]⟩) from rfl), hv]
          simp only [needNumber, Meth.lift_ok_bind]
          by_cases hq : Shallot.quotientType v = "float64"
          · right
            refine ⟨(t.data.map fun x => x.neg.div v.num).map (blank s), by simp, ?_⟩
            have hdet : Shallot.determineDiskGradients (Shallot.positionsOf t v) s = (.ok (), { s with
                gradients := some (s.gradients.getD [] ++
                  (t.data.map fun x => x.neg.div v.num).map (blank s)) }) := by
              unfold Shallot.determineDiskGradients
              have : array (.arr (Shallot.positionsOf t v)) (dtype := .str "float64")
                  (numDimensions := .int 1) = .ok (Shallot.positionsOf t v) := by
                rw [array1_ok]
                exact ⟨rfl, hq, hf⟩
              rw [this, Meth.lift_ok_bind, Meth.modify_bind,
                appendGradients_eq _ _ (s.gradients.getD []) rfl]
              have hb : blank { s with gradients := some (s.gradients.getD []) } = blank s :=
                funext fun y => blank_congr rfl rfl rfl rfl y
              rw [hb]
              rfl
            have hq' : GLog.quiet (Shallot.determineDiskGradients (Shallot.positionsOf t v))
                (⟨s, log ++ [.adding t.data.length]⟩ : GLog K) = (.ok (), ⟨{ s with
                gradients := some (s.gradients.getD [] ++
                  (t.data.map fun x => x.neg.div v.num).map (blank s)) }, log ++ [.adding t.data.length]⟩) := by
              unfold GLog.quiet
              simp only [hdet]
            rw [bind_ok _ _ _ _ () hq']
            obtain ⟨k1, k2, k3⟩ := setMeasured_logged l c d ⟨{ s with
                gradients := some (s.gradients.getD [] ++
                  (t.data.map fun x => x.neg.div v.num).map (blank s)) }, log ++ [.adding t.data.length]⟩
            simp only [hv] at k1 k2 k3 ⊢
            refine ⟨k1, k2.trans ?_, k3⟩
            simp [numGradients]
          · left
            refine ⟨?_, hq⟩
            have hdet : ∃ er, Shallot.determineDiskGradients (Shallot.positionsOf t v) s = (.error er, s) := by
              unfold Shallot.determineDiskGradients
              cases h : array (.arr (Shallot.positionsOf t v)) (dtype := .str "float64")
                (numDimensions := .int 1) with
              | error er => exact ⟨er, rfl⟩
              | ok p =>
                obtain ⟨e, e', -⟩ := (array1_ok _ _).1 h
                cases e
                exact absurd e' hq
            obtain ⟨er, hdet⟩ := hdet
            have hq' : GLog.quiet (Shallot.determineDiskGradients (Shallot.positionsOf t v))
                (⟨s, log ++ [.adding t.data.length]⟩ : GLog K) =
                (.error er, ⟨s, log ++ [.adding t.data.length]⟩) := by
              unfold GLog.quiet
              simp only [hdet]
            rw [bind_err _ _ _ _ er hq']

/-! ## Determining the fit -/

theorem determineFit_logged (w : Bool) (st : GLog K) : (GLog.determineFit w st).2 =
    ⟨(Shallot.determineFit w st.grid).2, st.log ++ [match st.grid.gradients with
      | none => .nothingToFit
      | some gs => .determining gs.length]⟩ := by
  have h := (determineFit_follows w st).2
  suffices h2 : (GLog.determineFit w st).2.log = st.log ++ [match st.grid.gradients with
      | none => .nothingToFit
      | some gs => .determining gs.length] by
    rw [← h, ← h2]
  unfold GLog.determineFit
  have h0 : ∀ f : Shallot K → Meth (GLog K) Unit, (GLog.self >>= f) st = f st.grid st := fun _ => rfl
  rw [h0]
  rcases st.grid.gradients with _ | gs
  · rfl
  · simp only
    rw [bind_ok _ _ _ _ () (show GLog.say (.determining gs.length) st =
            (.ok (), ⟨st.grid, st.log ++ [.determining gs.length]⟩) from rfl)]
    have B : Pre (fun st st' : GLog K => st'.log = st.log) := ⟨fun _ => rfl, fun h h' => h'.trans h⟩
    exact Moves.bind B (Moves.lift B _) (fun _ => Moves.bind B (Moves.lift B _) fun _ =>
      Moves.bind B (fun _ => rfl) fun _ _ => rfl) _

theorem determineFit_stays (w : Bool) (s : Shallot K) :
    (s.gradientFit.isSome = true → (Shallot.determineFit w s).2.gradientFit.isSome = true) ∧
    (Shallot.determineFit w s).2.gradients = s.gradients := by
  rcases determineFit_cases w s with ⟨-, h⟩ | ⟨gs, -, ⟨e, h, -⟩ | ⟨p, data, -, -, -, h⟩⟩ <;> rw [h]
  · exact ⟨id, rfl⟩
  · exact ⟨id, rfl⟩
  · exact ⟨fun _ => rfl, rfl⟩

/-! ## What the log says -/

/-- The messages so far stay as they are: a call only writes behind them. -/
theorem logged_grows (op : GridOp K) (st : GLog K) : Grows st (op.logged st).2 := by
  by_cases ha : ∃ a b c d, op = .add a b c d
  · obtain ⟨a, b, c, d, rfl⟩ := ha
    show Grows st (GLog.addGradients a b c d st).2
    rcases addGradients_logged a b c d st with h | h | ⟨t, v, -, -, ⟨h, -⟩ | ⟨gs, -, h, -⟩⟩
    · rw [h]; exact List.prefix_append _ _
    · rw [h]; exact List.prefix_refl _
    · rw [h]; exact List.prefix_append _ _
    · exact List.IsPrefix.trans (List.prefix_append _ _) h.grows
  by_cases hf : ∃ w, op = .fit w
  · obtain ⟨w, rfl⟩ := hf
    show Grows st (GLog.determineFit w st).2
    rw [determineFit_logged]
    exact List.prefix_append _ _
  push Not at ha hf
  exact (logged_balanced op ha hf st).grows

/-- **C98.**  `gradient fit has been cleared` is logged by exactly the calls before which there was a fit and
after which there is none, once. -/
theorem C98_cleared (op : GridOp K) (st : GLog K) :
    (op.logged st).2.log.count .cleared = st.log.count .cleared +
      (st.grid.gradientFit.isSome && (op.exec st.grid).gradientFit.isNone).toNat := by
  rw [← (C98_transparent op st).2]
  have hle := (logged_grows op st).sublist.count_le GridMsg.cleared
  have fin : fitCount (op.logged st).2 = fitCount st → (op.logged st).2.log.count .cleared =
      st.log.count .cleared + (st.grid.gradientFit.isSome && (op.logged st).2.grid.gradientFit.isNone).toNat := by
    intro h
    unfold fitCount at h
    rcases h1 : st.grid.gradientFit with _ | p <;> rcases h2 : (op.logged st).2.grid.gradientFit with _ | p' <;>
      simp [h1, h2] at h ⊢ <;> omega
  by_cases ha : ∃ a b c d, op = .add a b c d
  · obtain ⟨a, b, c, d, rfl⟩ := ha
    apply fin
    show fitCount (GLog.addGradients a b c d st).2 = _
    rcases addGradients_logged a b c d st with h | h | ⟨t, v, -, -, ⟨h, -⟩ | ⟨gs, -, h, -⟩⟩
    · rw [h]; simp [fitCount, List.count_append]
    · rw [h]
    · rw [h]; simp [fitCount, List.count_append]
    · rw [h.fit]; simp [fitCount, List.count_append]
  by_cases hf : ∃ w, op = .fit w
  · obtain ⟨w, rfl⟩ := hf
    show (GLog.determineFit w st).2.log.count _ =
      _ + (_ && (GLog.determineFit w st).2.grid.gradientFit.isNone).toNat
    have h := (determineFit_stays w st.grid).1
    rw [determineFit_logged]
    have h2 : (st.grid.gradientFit.isSome && (Shallot.determineFit w st.grid).2.gradientFit.isNone) = false := by
      rcases h1 : st.grid.gradientFit.isSome
      · rfl
      · rcases h2 : (Shallot.determineFit w st.grid).2.gradientFit with _ | p
        · rw [h2] at h; cases h h1
        · rfl
    simp only [h2]
    rcases st.grid.gradients with _ | gs <;> simp [List.count_append]
  push Not at ha hf
  exact fin (logged_balanced op ha hf st).fit

/-- `gradients set to None …` is logged by exactly the calls before which there were gradients and after
which there are none, once. -/
theorem C98_dropped (op : GridOp K) (st : GLog K) :
    (op.logged st).2.log.count .dropped = st.log.count .dropped +
      (st.grid.gradients.isSome && (op.exec st.grid).gradients.isNone).toNat := by
  rw [← (C98_transparent op st).2]
  have hle := (logged_grows op st).sublist.count_le GridMsg.dropped
  by_cases ha : ∃ a b c d, op = .add a b c d
  · obtain ⟨a, b, c, d, rfl⟩ := ha
    show (GLog.addGradients a b c d st).2.log.count _ = _ +
      (_ && (GLog.addGradients a b c d st).2.grid.gradients.isNone).toNat
    rcases addGradients_logged a b c d st with h | h | ⟨t, v, -, -, ⟨h, -⟩ | ⟨gs, -, h, -, h'⟩⟩
    · rw [h]; rcases st.grid.gradients with _ | l <;> simp [List.count_append]
    · rw [h]; rcases st.grid.gradients with _ | l <;> simp
    · rw [h]; rcases st.grid.gradients with _ | l <;> simp [List.count_append]
    · have h1 := h.grad
      simp only [gradCount, List.count_append, Option.isSome_some, Bool.toNat_true, h'] at h1
      obtain ⟨l, hl⟩ := Option.isSome_iff_exists.1 h'
      rw [hl]
      simpa using h1
  by_cases hf : ∃ w, op = .fit w
  · obtain ⟨w, rfl⟩ := hf
    show (GLog.determineFit w st).2.log.count _ =
      _ + (_ && (GLog.determineFit w st).2.grid.gradients.isNone).toNat
    rw [determineFit_logged]
    simp only [(determineFit_stays w st.grid).2]
    rcases st.grid.gradients with _ | gs <;> simp [List.count_append]
  push Not at ha hf
  have h := (logged_balanced op ha hf st).grad
  unfold gradCount at h
  rcases h1 : st.grid.gradients with _ | p <;> rcases h2 : (op.logged st).2.grid.gradients with _ | p' <;>
    simp [h1, h2] at h ⊢ <;> omega

/-- A whole session: `gradient fit has been cleared` stands in the log as often as a call took a fit away, and
`gradients set to None …` as often as a call took the gradients away. -/
theorem C98_session (ops : List (GridOp K)) (s : Shallot K) :
    (runGridLog ops ⟨s, []⟩).log.count .cleared = ((List.range ops.length).filter fun k =>
      (runGrid (ops.take k) s).gradientFit.isSome && (runGrid (ops.take (k + 1)) s).gradientFit.isNone).length ∧
    (runGridLog ops ⟨s, []⟩).log.count .dropped = ((List.range ops.length).filter fun k =>
      (runGrid (ops.take k) s).gradients.isSome && (runGrid (ops.take (k + 1)) s).gradients.isNone).length := by
  induction ops using List.reverseRecOn with
  | nil => exact ⟨rfl, rfl⟩
  | append_singleton ops op ih =>
    have hr : runGridLog (ops ++ [op]) ⟨s, []⟩ = (op.logged (runGridLog ops ⟨s, []⟩)).2 := by
      simp [runGridLog]
    have hg := runGridLog_grid ops ⟨s, []⟩
    have htake : ∀ k < ops.length, (ops ++ [op]).take k = ops.take k ∧
        (ops ++ [op]).take (k + 1) = ops.take (k + 1) := by
      intro k hk
      exact ⟨List.take_append_of_le_length hk.le, List.take_append_of_le_length hk⟩
    have hlast : runGrid (ops ++ [op]) s = op.exec (runGrid ops s) := by simp [runGrid]
    have hcount : ∀ f : Shallot K → Shallot K → Bool,
        ((List.range (ops ++ [op]).length).filter fun k => f (runGrid ((ops ++ [op]).take k) s)
          (runGrid ((ops ++ [op]).take (k + 1)) s)).length =
        ((List.range ops.length).filter fun k => f (runGrid (ops.take k) s)
          (runGrid (ops.take (k + 1)) s)).length + (f (runGrid ops s) (op.exec (runGrid ops s))).toNat := by
      intro f
      rw [List.length_append, List.length_singleton, List.range_succ, List.filter_append, List.length_append]
      congr 1
      · congr 1
        refine List.filter_congr fun k hk => ?_
        rw [(htake k (List.mem_range.1 hk)).1, (htake k (List.mem_range.1 hk)).2]
      · have e1 : (ops ++ [op]).take ops.length = ops := by simp
        have e2 : (ops ++ [op]).take (ops.length + 1) = ops ++ [op] := by simp
        simp only [List.filter_cons, List.filter_nil, e1, e2, hlast]
        cases f (runGrid ops s) (op.exec (runGrid ops s)) <;> rfl
    rw [hr, C98_cleared, C98_dropped, ih.1, ih.2, hg]
    exact ⟨(hcount fun a b => a.gradientFit.isSome && b.gradientFit.isNone).symm,
      (hcount fun a b => a.gradients.isSome && b.gradients.isNone).symm⟩

/-- `adding n gradients` is logged by exactly the calls of `add_gradients` that add `n` gradients, whether they
raise later or not, if the duration of the eclipse is no `np.longdouble` (see `C98_false_added`): the number of
gradients grows by the numbers that are logged. -/
theorem C98_added_partial (a b c d : PyVal K) (st : GLog K)
    (hd : ∀ v, st.grid.eclipseDuration = some v → ∀ x, v ≠ .npFloat .w128 x) :
    numGradients (Shallot.addGradients a b c d st.grid).2 + addedCount st.log =
      numGradients st.grid + addedCount (GLog.addGradients a b c d st).2.log := by
  rw [← (addGradients_follows a b c d st).2]
  have hadd : ∀ n, addedCount (st.log ++ [.adding n]) = addedCount st.log + n := by
    intro n; simp [addedCount]
  rcases addGradients_logged a b c d st with h | h | ⟨t, v, -, hv, ⟨h, hq⟩ | ⟨gs, -, h, h', -⟩⟩
  · rw [h]; simp [addedCount]
  · rw [h]
  · have := hd v hv
    exfalso
    apply hq
    unfold Shallot.quotientType
    split
    · exact absurd rfl (this _)
    · rfl
  · rw [h', h.added, hadd]; omega

/-- In no session are there more gradients than the log says were added to those of the beginning. -/
theorem C98_session_added (ops : List (GridOp K)) (st : GLog K) :
    numGradients (runGrid ops st.grid) + addedCount st.log ≤
      numGradients st.grid + addedCount (runGridLog ops st).log := by
  rw [← runGridLog_grid]
  induction ops generalizing st with
  | nil => exact le_rfl
  | cons op ops ih =>
    have h1 := ih (op.logged st).2
    show numGradients (runGridLog ops (op.logged st).2).grid + _ ≤
      _ + addedCount (runGridLog ops (op.logged st).2).log
    suffices h2 : numGradients (op.logged st).2.grid + addedCount st.log ≤
        numGradients st.grid + addedCount (op.logged st).2.log by omega
    by_cases ha : ∃ a b c d, op = .add a b c d
    · obtain ⟨a, b, c, d, rfl⟩ := ha
      show numGradients (GLog.addGradients a b c d st).2.grid + _ ≤
        _ + addedCount (GLog.addGradients a b c d st).2.log
      have hadd : ∀ n, addedCount (st.log ++ [.adding n]) = addedCount st.log + n := by
        intro n; simp [addedCount]
      rcases addGradients_logged a b c d st with h | h | ⟨t, v, -, hv, ⟨h, hq⟩ | ⟨gs, -, h, h', -⟩⟩
      · rw [h]; simp [addedCount]
      · rw [h]
      · rw [h, hadd]; simp only; omega
      · rw [h', h.added, hadd]; omega
    by_cases hf : ∃ w, op = .fit w
    · obtain ⟨w, rfl⟩ := hf
      show numGradients (GLog.determineFit w st).2.grid + _ ≤ _ + addedCount (GLog.determineFit w st).2.log
      rw [determineFit_logged]
      have : numGradients (Shallot.determineFit w st.grid).2 = numGradients st.grid := by
        unfold numGradients; rw [(determineFit_stays w st.grid).2]
      simp only [this]
      rcases st.grid.gradients with _ | gs <;> simp [addedCount]
    push Not at ha hf
    have := logged_balanced op ha hf st
    rw [this.added]
    have := this.number
    omega

/-- With a `np.longdouble` as duration the log says that gradients are being added, and none is: the call
raises and the grid is left as it was. -/
theorem C98_false_added (st : GLog K) (hr : st.grid.ready = true) (x : XF K)
    (hd : st.grid.eclipseDuration = some (.npFloat .w128 x)) (ts ls : List (XF K))
    (hlen : ts.length = ls.length) (hl : ∀ y ∈ ls, ¬ Less y (.fin 0)) (e r : PyVal K) :
    ∃ er, GLog.addGradients (column ts) (column ls) e r st =
      (.error er, ⟨st.grid, st.log ++ [.adding ts.length]⟩) := by
  obtain ⟨s, log⟩ := st
  simp only at hr hd
  have h0 : ∀ f : Shallot K → Meth (GLog K) Unit, (GLog.self >>= f) (⟨s, log⟩ : GLog K) = f s ⟨s, log⟩ :=
    fun _ => rfl
  have h1 : array (column ts) (dtype := .str "float64") (numDimensions := .int 1) =
      .ok ⟨"float64", [ts.length], ts⟩ := (array1_ok _ _).2 ⟨rfl, rfl, rfl⟩
  have h2 : array (column ls) (lower := .float (.fin 0)) (dtype := .str "float64")
      (numDimensions := .int 1) = .ok ⟨"float64", [ls.length], ls⟩ :=
    (lower_ok _ _ (.float (.fin 0)) (.fin 0) (by simp) (Or.inr ⟨rfl, .float _⟩)
      (by rw [less_iff]; simp)).2 ⟨column_floats _, hl⟩
  have h3 : sameShapeArrays (K := K) [.arr ⟨"float64", [ts.length], ts⟩, .arr ⟨"float64", [ls.length], ls⟩] 2 =
      .ok () := (sameShape2_ok _ _).2 (by simp [hlen])
  unfold GLog.addGradients
  rw [h0, if_pos hr, h1, Meth.lift_ok_bind, h2, Meth.lift_ok_bind, h3, Meth.lift_ok_bind,
    bind_ok _ _ _ _ () (show GLog.say (.adding ts.length) (⟨s, log⟩ : GLog K) =
            (.ok (), ⟨s, log ++ [.adding ts.length]⟩) from rfl), hd]
  simp only [needNumber, Meth.lift_ok_bind]
  have hdet : ∃ er, Shallot.determineDiskGradients (Shallot.positionsOf ⟨"float64", [ts.length], ts⟩
      (.npFloat .w128 x)) s = (.error er, s) := by
    unfold Shallot.determineDiskGradients
    cases h : array (.arr (Shallot.positionsOf ⟨"float64", [ts.length], ts⟩ (.npFloat .w128 x)))
      (dtype := .str "float64") (numDimensions := .int 1) with
    | error er => exact ⟨er, rfl⟩
    | ok p =>
      obtain ⟨e, e', -⟩ := (array1_ok _ _).1 h
      cases e
      exact absurd e' (by simp [Shallot.positionsOf, Shallot.quotientType])
  obtain ⟨er, hdet⟩ := hdet
  have hq' : GLog.quiet (Shallot.determineDiskGradients (Shallot.positionsOf ⟨"float64", [ts.length], ts⟩
      (.npFloat .w128 x))) (⟨s, log ++ [.adding ts.length]⟩ : GLog K) =
      (.error er, ⟨s, log ++ [.adding ts.length]⟩) := by
    unfold GLog.quiet
    simp only [hdet]
  exact ⟨er, bind_err _ _ _ _ er hq'⟩

/-! ## Calls without an effect -/

/-- The messages that say that there was nothing to do. -/
def Spec.Idle (m : GridMsg K) : Prop := m = .missing ∨ m = .noGradients ∨ m = .noChanges ∨ m = .nothingToFit

/-- No such message is written. -/
def Busy (st st' : GLog K) : Prop := ∃ new, st'.log = st.log ++ new ∧ ∀ m ∈ new, ¬ Idle m

theorem Busy.pre : Pre (Busy (K := K)) := by
  refine ⟨fun _ => ⟨[], by simp, by simp⟩, ?_⟩
  rintro a b c ⟨n, h, h'⟩ ⟨n', k, k'⟩
  refine ⟨n ++ n', by rw [k, h, List.append_assoc], ?_⟩
  intro m hm
  rcases List.mem_append.1 hm with hm | hm
  · exact h' m hm
  · exact k' m hm

theorem quiet_busy {α : Type} (m : Meth (Shallot K) α) : Moves Busy (GLog.quiet m) :=
  fun st => ⟨[], by simp [GLog.quiet], by simp⟩

theorem self_busy : Moves Busy (GLog.self (K := K)) := fun _ => Busy.pre.refl _

theorem say_busy {m : GridMsg K} (h : ¬ Idle m) : Moves Busy (GLog.say m) :=
  fun st => ⟨[m], rfl, by simpa using h⟩

theorem resetFit_busy : Moves Busy (GLog.resetFit (K := K)) := by
  intro st
  rw [resetFit_log]
  refine ⟨_, rfl, ?_⟩
  split_ifs <;> simp [Idle]

theorem getGradientFit_busy (v w : PyVal K) : Moves Busy (GLog.getGradientFit v w) := by
  unfold GLog.getGradientFit
  refine Moves.bind Busy.pre self_busy fun s => ?_
  split_ifs
  · exact Moves.bind Busy.pre (say_busy (by simp [Idle])) fun _ => Moves.pure Busy.pre _
  · exact Moves.bind Busy.pre (quiet_busy _) fun _ => Moves.pure Busy.pre _

theorem storeScaling_none (s : Shallot K) : Shallot.storeScaling .none .none s = s := by
  simp [Shallot.storeScaling]

theorem logged_busy (op : GridOp K) (st : GLog K) : Busy st (op.logged st).2 ∨
    ∃ (m : GridMsg K) (a : op.Result), Idle m ∧ op.logged st = (.ok a, ⟨st.grid, st.log ++ [m]⟩) := by
  have B := Busy.pre (K := K)
  cases op with
  | get c v w => exact Or.inl (quiet_busy _ st)
  | getFit v w => exact Or.inl (getGradientFit_busy v w st)
  | getGradients v w => exact Or.inl (quiet_busy _ st)
  | point y x r v => exact Or.inl (quiet_busy _ st)
  | closest a b c d v =>
    left
    suffices h : Moves Busy (GLog.closestPoint a b c d v) from h st
    unfold GLog.closestPoint
    refine Moves.bind B (Moves.lift B _) fun _ => Moves.bind B (Moves.lift B _) fun _ =>
      Moves.bind B (Moves.lift B _) fun _ => Moves.bind B (Moves.lift B _) fun _ =>
      Moves.bind B (Moves.lift B _) fun _ => Moves.bind B (quiet_busy _) fun _ =>
      Moves.bind B (quiet_busy _) fun _ => Moves.bind B (quiet_busy _) fun _ =>
      Moves.bind B self_busy fun _ => Moves.bind B (Moves.lift B _) fun _ => ?_
    exact Moves.bind B (say_busy (by simp [Idle])) fun _ => Moves.bind B (say_busy (by simp [Idle])) fun _ =>
      Moves.bind B (say_busy (by simp [Idle])) fun _ => Moves.bind B (say_busy (by simp [Idle])) fun _ =>
      Moves.bind B (say_busy (by simp [Idle])) fun _ => Moves.bind B (say_busy (by simp [Idle])) fun _ =>
      Moves.pure B _
  | hill h => exact Or.inl (quiet_busy _ st)
  | diagnose =>
    left
    suffices h : Moves Busy (GLog.diagnose (K := K)) from h st
    exact Moves.bind B (quiet_busy _) fun _ => Moves.bind B self_busy fun _ => say_busy (by simp [Idle])
  | add a b c d =>
    by_cases hr : st.grid.ready = true
    · left
      show Busy st (GLog.addGradients a b c d st).2
      unfold GLog.addGradients
      show Busy st ((if st.grid.ready = true then _ else _ : Meth (GLog K) Unit) st).2
      rw [if_pos hr]
      revert st
      exact fun st _ => (Moves.bind B (Moves.lift B _) fun _ => Moves.bind B (Moves.lift B _) fun _ =>
        Moves.bind B (Moves.lift B _) fun _ => Moves.bind B (say_busy (by simp [Idle])) fun _ =>
        Moves.bind B (Moves.lift B _) fun _ => Moves.bind B (quiet_busy _) fun _ =>
        Moves.bind B (quiet_busy _) fun _ => resetFit_busy : Moves Busy _) st
    · right
      refine ⟨.missing, (), by simp [Idle], ?_⟩
      show (if st.grid.ready = true then _ else GLog.say .missing : Meth (GLog K) Unit) st = _
      rw [if_neg hr]
      rfl
  | remove v =>
    show Busy st (GLog.removeGradients v st).2 ∨ ∃ (m : GridMsg K) (a : Unit), Idle m ∧
      GLog.removeGradients v st = (.ok a, ⟨st.grid, st.log ++ [m]⟩)
    unfold GLog.removeGradients
    have h0 : ∀ f : Shallot K → Meth (GLog K) Unit, (GLog.self >>= f) st = f st.grid st := fun _ => rfl
    rw [h0]
    rcases st.grid.gradients with _ | l
    · right
      exact ⟨.noGradients, (), by simp [Idle], rfl⟩
    · left
      exact (Moves.bind B (Moves.lift B _) fun _ => Moves.bind B (quiet_busy _) fun _ => resetFit_busy :
        Moves Busy _) st
  | eclipse a b c =>
    left
    suffices h : Moves Busy (GLog.setEclipseParameters a b c) from h st
    unfold GLog.setEclipseParameters
    refine Moves.bind B (quiet_busy _) fun _ => Moves.bind B self_busy fun s => ?_
    rcases s.gradients with _ | l
    · exact Moves.pure B _
    · exact Moves.bind B (quiet_busy _) fun _ => Moves.bind B (say_busy (by simp [Idle])) fun _ => resetFit_busy
  | update a b c =>
    by_cases hn : a = .none ∧ b = .none ∧ c = .none
    · obtain ⟨rfl, rfl, rfl⟩ := hn
      right
      refine ⟨.noChanges, (), by simp [Idle], ?_⟩
      show GLog.updateScaling .none .none .none st = _
      unfold GLog.updateScaling
      have h0 : GLog.quiet (Meth.modify (Shallot.storeScaling .none .none)) st = (.ok (), st) := by
        show (Except.ok (), (⟨Shallot.storeScaling .none .none st.grid, st.log⟩ : GLog K)) = _
        rw [storeScaling_none]
      rw [bind_ok _ _ _ _ () h0]
      rfl
    · left
      suffices h : Moves Busy (GLog.updateScaling a b c) from h st
      unfold GLog.updateScaling
      refine Moves.bind B (quiet_busy _) fun _ => Moves.bind B self_busy fun s => ?_
      rcases ht : s.newTransmissions c with e | t
      · exact fun st => B.refl st
      · intro st
        rw [Meth.lift_ok_bind, if_neg]
        · revert st
          rcases s.gradients with _ | l
          · exact fun st => Moves.throw B _ st
          · exact fun st => (Moves.bind B (quiet_busy _) fun _ => resetFit_busy : Moves Busy _) st
        · intro h
          simp only [Bool.and_eq_true, Bool.not_eq_true', decide_eq_false_iff_not, not_or, not_not] at h
          obtain ⟨⟨h1, h2⟩, h3⟩ := h
          refine hn ⟨h1, h2, ?_⟩
          by_contra hc
          unfold Shallot.newTransmissions at ht
          rw [if_neg hc] at ht
          revert ht
          rcases array c (lower := .int (-1)) (upper := .int 1) (dtype := .str "float64")
            (numDimensions := .int 1) with e | w
          · intro ht; cases ht
          · rw [ok_bind]
            rcases sameShapeArrays [.arr w, .arr ⟨"object", s.gradientsShape, []⟩] 2 with e | u
            · intro ht; cases ht
            · rw [ok_bind]
              intro ht
              cases ht
              cases h3
  | fit w =>
    show Busy st (GLog.determineFit w st).2 ∨ ∃ (m : GridMsg K) (a : Unit), Idle m ∧
      GLog.determineFit w st = (.ok a, ⟨st.grid, st.log ++ [m]⟩)
    rcases hg : st.grid.gradients with _ | l
    · right
      refine ⟨.nothingToFit, (), by simp [Idle], ?_⟩
      unfold GLog.determineFit
      have h0 : ∀ f : Shallot K → Meth (GLog K) Unit, (GLog.self >>= f) st = f st.grid st := fun _ => rfl
      rw [h0, hg]
      rfl
    · left
      rw [determineFit_logged, hg]
      exact ⟨_, rfl, by simp [Idle]⟩
  | extract n =>
    left
    suffices h : Moves Busy (GLog.extractSolutions n) from h st
    unfold GLog.extractSolutions
    exact Moves.bind B self_busy fun _ => Moves.bind B (Moves.lift B _) fun _ =>
      Moves.bind B (Moves.lift B _) fun _ => Moves.bind B (say_busy (by simp [Idle])) fun _ =>
      Moves.bind B (getGradientFit_busy _ _) fun _ => quiet_busy _

/-- A call that logs `eclipse parameters missing`, `no gradients found`, `no changes passed` or `no gradients
present` has done nothing else: it returns, the grid is as before, and there is no other message. -/
theorem C98_nothing (op : GridOp K) (st : GLog K) (new : List (GridMsg K))
    (h : (op.logged st).2.log = st.log ++ new) (m : GridMsg K) (hm : m ∈ new)
    (hi : m = .missing ∨ m = .noGradients ∨ m = .noChanges ∨ m = .nothingToFit) :
    new = [m] ∧ op.exec st.grid = st.grid ∧ ∃ a, (op.call st.grid).1 = .ok a := by
  rcases logged_busy op st with ⟨n', h1, h2⟩ | ⟨m', a, h1, h2⟩
  · rw [h1] at h
    obtain rfl := List.append_cancel_left h
    exact absurd hi (h2 m hm)
  · have ht := C98_transparent op st
    rw [h2] at h ht
    have h := List.append_cancel_left (show st.log ++ [m'] = st.log ++ new from h)
    subst h
    rw [List.mem_singleton] at hm
    subst hm
    exact ⟨rfl, ht.2.symm, a, ht.1.symm⟩

/-- `no gradient fit found` by `get_gradient_fit`: there is no fit and `None` is returned; otherwise nothing is
logged. -/
theorem C98_noFit (v w : PyVal K) (st : GLog K) :
    (st.grid.gradientFit = none → GLog.getGradientFit v w st = (.ok none, ⟨st.grid, st.log ++ [.noFit]⟩)) ∧
    (st.grid.gradientFit ≠ none → (GLog.getGradientFit v w st).2.log = st.log ∧
      (GLog.getGradientFit v w st).1 ≠ .ok none) := by
  unfold GLog.getGradientFit
  have h0 : ∀ f : Shallot K → Meth (GLog K) (Option (Nd K)), (GLog.self >>= f) st = f st.grid st := fun _ => rfl
  rw [h0]
  refine ⟨fun h => ?_, fun h => ?_⟩
  · rw [if_pos h]
    rfl
  · rw [if_neg h]
    rcases bind_cases (GLog.quiet (Shallot.getCube .gradientFit v w)) (fun d => pure (some d)) st with
      ⟨d, st', h1, h2⟩ | ⟨e, st', h1, h2⟩
    all_goals
      rw [h2]
      have : st'.log = st.log := (congrArg (fun p => p.2.log) h1).symm
    · exact ⟨this, fun h => by cases h⟩
    · exact ⟨this, fun h => by cases h⟩

/-- `determining n gradient rms's`: `n` is the number of gradients, and it is logged exactly if there is a list
of gradients. -/
theorem C98_determining (w : Bool) (st : GLog K) :
    (st.grid.gradients = none → (GLog.determineFit w st).2.log = st.log ++ [.nothingToFit]) ∧
    (st.grid.gradients ≠ none →
      (GLog.determineFit w st).2.log = st.log ++ [.determining (numGradients st.grid)]) := by
  rw [determineFit_logged]
  unfold numGradients
  rcases st.grid.gradients with _ | l <;> simp

theorem solutionLoop_length : ∀ (n : ℕ) (s s' : Shallot K) (rows : List (Shallot.Solution K)),
    Shallot.solutionLoop n s = (.ok rows, s') → rows.length = n
  | 0, s, s', rows, h => by cases h; rfl
  | n + 1, s, s', rows, h => by
    unfold Shallot.solutionLoop at h
    rcases bind_cases Shallot.solution (fun a => Shallot.solutionLoop n >>= fun rest => pure (a :: rest)) s with
      ⟨a, t, -, h2⟩ | ⟨e, t, -, h2⟩
    · rw [h2] at h
      rcases bind_cases (Shallot.solutionLoop n) (fun rest => pure (a :: rest)) t with
        ⟨rest, t', h3, h4⟩ | ⟨e, t', -, h4⟩
      · rw [h4] at h
        cases h
        rw [List.length_cons, solutionLoop_length n t s' rest h3]
      · rw [h4] at h; cases h
    · rw [h2] at h; cases h

/-- `extracting n out of m possible solutions`: `m` is the number of grid points that no mask covers, `n` is the
number that was asked for and the number of rows that are returned.  It is logged exactly if `n` is
between 0 and `m`; otherwise the call raises and changes nothing. -/
theorem C98_extracting (st : GLog K) (hs : Sound st.grid) (num : PyVal K) (k : ℤ)
    (hk : (num = .none ∧ k = (unmasked st.grid).card) ∨ PlainIndex num k) :
    (¬ (0 ≤ k ∧ k ≤ (unmasked st.grid).card) → GLog.extractSolutions num st = (.error .valueError, st)) ∧
    (0 ≤ k ∧ k ≤ (unmasked st.grid).card → ∃ n : ℕ, (n : ℤ) = k ∧
      (GLog.extractSolutions num st).2.log = st.log ++ [.extracting n (unmasked st.grid).card] ++
        (if st.grid.gradientFit = none then [.noFit] else []) ∧
      ∀ rows, (GLog.extractSolutions num st).1 = .ok rows → rows.length = n) := by
  obtain ⟨m, hm1, -, hm3, hm4⟩ := C38_union st.grid hs
  have hc := count_unmasked st.grid m hm3 hm4
  have h0 : ∀ f : Shallot K → Meth (GLog K) (List (Shallot.Solution K)), (GLog.self >>= f) st = f st.grid st :=
    fun _ => rfl
  refine ⟨fun hno => ?_, fun hyes => ?_⟩
  · unfold GLog.extractSolutions
    rw [h0, hm1, Meth.lift_ok_bind]
    rcases hk with ⟨-, rfl⟩ | hk
    · exact absurd ⟨by simp, le_rfl⟩ hno
    · rw [solutionCount_error st.grid m num k hc hk (by omega)]
      rfl
  · obtain ⟨n, rfl⟩ : ∃ n : ℕ, (n : ℤ) = k := ⟨k.toNat, by omega⟩
    refine ⟨n, rfl, ?_⟩
    have hn : Shallot.solutionCount num m = .ok n := by
      refine solutionCount_ok st.grid m num n hc ?_ (by omega)
      rcases hk with ⟨h, h'⟩ | hk
      · exact Or.inl ⟨h, by omega⟩
      · exact Or.inr hk
    have hlog : ∀ st' : GLog K, (GLog.quiet (Shallot.solutionLoop n) st').2.log = st'.log := fun _ => rfl
    have hrows : ∀ (st' : GLog K) rows, (GLog.quiet (Shallot.solutionLoop n) st').1 = .ok rows → rows.length = n := by
      intro st' rows h
      refine solutionLoop_length n st'.grid (Shallot.solutionLoop n st'.grid).2 rows ?_
      exact Prod.ext h rfl
    unfold GLog.extractSolutions
    rw [h0, hm1, Meth.lift_ok_bind, hn, Meth.lift_ok_bind, hc,
      bind_ok _ _ _ _ () (show GLog.say (.extracting n (unmasked st.grid).card) st =
      (.ok (), ⟨st.grid, st.log ++ [.extracting n (unmasked st.grid).card]⟩) from rfl)]
    obtain ⟨g1, g2⟩ := C98_noFit (.bool true) (.bool true)
      (⟨st.grid, st.log ++ [.extracting n (unmasked st.grid).card]⟩ : GLog K)
    by_cases hf : st.grid.gradientFit = none
    · rw [bind_ok _ _ _ _ _ (g1 hf), hlog, if_pos hf]
      exact ⟨rfl, hrows _⟩
    · have g3 := (g2 hf).1
      rw [if_neg hf, List.append_nil]
      rcases bind_cases (GLog.getGradientFit (.bool true) (.bool true)) (fun _ => GLog.quiet (Shallot.solutionLoop n))
        (⟨st.grid, st.log ++ [.extracting n (unmasked st.grid).card]⟩ : GLog K) with
        ⟨d, st', h1, h2⟩ | ⟨e, st', h1, h2⟩
      · rw [h1] at g3
        rw [h2]
        exact ⟨g3, hrows _⟩
      · rw [h1] at g3
        rw [h2]
        exact ⟨g3, fun rows h => by cases h⟩

/-! ## The closest grid point -/

/-- What `determine_closest_grid_point` logs when it returns: after the header, each value that was asked for beside
that of the grid at the indices that are returned, and the distance that is returned.  When it raises it logs
nothing.

What is missing: the value beside the impact parameter should be the `dy` that is returned (`C98_false_impact`). -/
theorem C98_closest_partial (st : GLog K) (hs : Sound st.grid) (a b c d : PyVal K) (m : Bool) :
    (∀ e, (GLog.closestPoint a b c d (.bool m) st).1 = .error e →
      (GLog.closestPoint a b c d (.bool m) st).2.log = st.log) ∧
    ∀ cl, (GLog.closestPoint a b c d (.bool m) st).1 = .ok cl → ∃ s',
      Shallot.closestPoint a b c d (.bool m) st.grid = (.ok cl, s') ∧
      (GLog.closestPoint a b c d (.bool m) st).2 = ⟨s', st.log ++ [.header,
        .closest .diskRadius a.num (s'.diskRadius.data.at3 cl.indices.1 cl.indices.2.1 cl.indices.2.2),
        .closest .inclination b.num (s'.inclination.data.at3 cl.indices.1 cl.indices.2.1 cl.indices.2.2),
        .closest .tilt c.num (s'.tilt.data.at3 cl.indices.1 cl.indices.2.1 cl.indices.2.2),
        .closest .impactParameter d.num (Shallot.rowPosition st.grid.params.dy.data d.num cl.indices.1),
        .fit cl.distance]⟩ := by
  have key : ∀ (v w lo hi : PyVal K), number v (.bool false) lo hi = .ok w → w = v :=
    fun v w lo hi h => ((C01_number_ok_iff false false v w lo hi).1 h).1
  obtain ⟨d1, g1, -⟩ := getCube_ok st.grid hs .diskRadius _ rfl m
  have s1 := getCube_sound .diskRadius (.bool m) (.bool true) st.grid hs
  rw [g1] at s1
  obtain ⟨t1, ht1⟩ : ∃ t1, t1 = st.grid.setProp { st.grid.diskRadius with data := d1 } .diskRadius := ⟨_, rfl⟩
  rw [← ht1] at g1 s1
  obtain ⟨d2, g2, -⟩ := getCube_ok t1 s1 .inclination _ rfl m
  have s2 := getCube_sound .inclination (.bool m) (.bool true) t1 s1
  rw [g2] at s2
  obtain ⟨t2, ht2⟩ : ∃ t2, t2 = t1.setProp { t1.inclination with data := d2 } .inclination := ⟨_, rfl⟩
  rw [← ht2] at g2 s2
  obtain ⟨d3, g3, -⟩ := getCube_ok t2 s2 .tilt _ rfl m
  obtain ⟨t3, ht3⟩ : ∃ t3, t3 = t2.setProp { t2.tilt with data := d3 } .tilt := ⟨_, rfl⟩
  rw [← ht3] at g3
  have hp : t3.params = st.grid.params := by subst ht3 ht2 ht1; rfl
  have e1 : t3.diskRadius.data = d1 := by subst ht3 ht2 ht1; rfl
  have e2 : t3.inclination.data = d2 := by subst ht3 ht2; rfl
  have e3 : t3.tilt.data = d3 := by subst ht3; rfl
  have q : ∀ {c : Cube} {t t' : Shallot K} {e : Nd K}, Shallot.getCube c (.bool m) (.bool true) t = (.ok e, t') →
      GLog.quiet (Shallot.getCube c (.bool m) (.bool true)) ⟨t, st.log⟩ = (.ok e, ⟨t', st.log⟩) := by
    intro c t t' e h
    unfold GLog.quiet
    simp only [h]
  have hfollow := closestPoint_follows a b c d (.bool m) st
  revert hfollow
  unfold GLog.closestPoint
  rcases n1 : number a (.bool false) (.int 0) with e | w1
  · exact fun _ => ⟨fun _ _ => rfl, fun cl h => by cases h⟩
  rw [Meth.lift_ok_bind]
  rcases n2 : number b (.bool false) (.int 0) (.int 90) with e | w2
  · exact fun _ => ⟨fun _ _ => rfl, fun cl h => by cases h⟩
  rw [Meth.lift_ok_bind]
  rcases n3 : number c (.bool false) (.int (-180)) (.int 180) with e | w3
  · exact fun _ => ⟨fun _ _ => rfl, fun cl h => by cases h⟩
  rw [Meth.lift_ok_bind]
  rcases n4 : number d with e | w4
  · exact fun _ => ⟨fun _ _ => rfl, fun cl h => by cases h⟩
  rw [Meth.lift_ok_bind]
  obtain rfl := key _ _ _ _ n1
  obtain rfl := key _ _ _ _ n2
  obtain rfl := key _ _ _ _ n3
  obtain rfl := key _ _ _ _ n4
  rw [show boolean (K := K) (.bool m) = .ok m from rfl, Meth.lift_ok_bind,
    bind_ok _ _ _ _ _ (q g1), bind_ok _ _ _ _ _ (q g2), bind_ok _ _ _ _ _ (q g3)]
  have h0 : ∀ f : Shallot K → Meth (GLog K) (Shallot.Closest K),
    (GLog.self >>= f) ⟨t3, st.log⟩ = f t3 ⟨t3, st.log⟩ := fun _ => rfl
  rw [h0]
  simp only [hp]
  rcases hcl : Shallot.closestOf st.grid.params (Shallot.distances w1.num w2.num w3.num w4.num
    st.grid.params.dy.data st.grid.params.gridShape.1 st.grid.params.gridShape.2.1 st.grid.params.gridShape.2.2
    d1 d2 d3) with e | cl
  · exact fun _ => ⟨fun _ _ => rfl, fun cl h => by cases h⟩
  · rw [Meth.lift_ok_bind]
    intro hfollow
    refine ⟨fun e h => (nomatch h), fun cl' h => ?_⟩
    cases h
    refine ⟨t3, Prod.ext hfollow.1.symm hfollow.2.symm, ?_⟩
    rw [e1, e2, e3]
    simp [GLog.say, Meth.bind_apply, Meth.modify]


end

/-- The rows of the code are not those of the grid, except the first. -/
theorem rowAt_ne (a b p : ℝ) (hab : a < b) (ha : -(10 ^ 7) < a) (hb : b < 10 ^ 7) (l : List (XF ℝ)) (n : ℕ)
    (hn : 2 ≤ n) (hev : Evenly l a b n) (y : ℕ) (hy : y < n) (hy0 : y ≠ 0) (x : XF ℝ) (hx : l[y]? = some x) :
    x ≠ .fin (rowAt a b p n y) := by
  obtain ⟨h', hpos, hstep⟩ := hev.step
  have hn0 : (0 : ℝ) < n := by exact_mod_cast (by omega : 0 < n)
  have hn1 : (0 : ℝ) < (n : ℝ) - 1 := by
    have : (1 : ℝ) < n := by exact_mod_cast hn
    linarith
  have hh : h' * (n - 1) = b - a := by
    have e1 := hstep (n - 1) (by omega)
    rw [hev.last hn] at e1
    have e2 := XF.fin.inj (Option.some.inj e1)
    rw [Nat.cast_sub (by omega), Nat.cast_one] at e2
    linarith
  have hy1 : (y : ℝ) ≤ n - 1 := by
    have h1 : y + 1 ≤ n := hy
    have : ((y + 1 : ℕ) : ℝ) ≤ n := by exact_mod_cast h1
    push_cast at this
    linarith
  have hy2 : (0 : ℝ) < y := by exact_mod_cast Nat.pos_of_ne_zero hy0
  have e := hstep y hy
  rw [hx] at e
  have e := Option.some.inj e
  have hle : (y : ℝ) * h' ≤ b - a := by nlinarith
  have hge : 0 < (y : ℝ) * h' := mul_pos hy2 hpos
  rw [e]
  intro h
  have h := XF.fin.inj h
  unfold rowAt at h
  split_ifs at h
  · linarith
  · linarith
  · have h3 : (y : ℝ) * h' = y / n * (b - a) := by linarith
    have h4 : (y : ℝ) * h' * n = y * (b - a) := by rw [h3]; field_simp
    have h5 : (y : ℝ) * (h' * n - (b - a)) = 0 := by linarith
    rcases mul_eq_zero.1 h5 with h6 | h6
    · exact hy2.ne' h6
    · nlinarith

/-- **The impact parameter that is logged is not that of the grid.**  In a grid with evenly spaced rows, the value
that `determine_closest_grid_point` logs beside the impact parameter is that of the returned `dy` in the first
row at most. -/
theorem C98_false_impact (st : GLog ℝ) (hs : Sound st.grid) (hi : NoInfinities st.grid) (m : Bool)
    (vr vi vt vp : PyVal ℝ) (R I T p a b : ℝ) (hq : Query vr vi vt vp R I T p) (hab : a < b)
    (ha : -(10 ^ 7) < a) (hb : b < 10 ^ 7) (n : ℕ) (hn : 2 ≤ n) (hev : Evenly st.grid.params.dy.data a b n)
    (cl : Shallot.Closest ℝ) (h : (GLog.closestPoint vr vi vt vp (.bool m) st).1 = .ok cl)
    (h0 : cl.indices.1 ≠ 0) :
    ∃ l x, (GLog.closestPoint vr vi vt vp (.bool m) st).2.log =
      l ++ [.closest .impactParameter (.fin p) x, .fit cl.distance] ∧ x ≠ cl.coordinates.1 := by
  obtain ⟨s', h1, h2⟩ := (C98_closest_partial st hs vr vi vt vp m).2 cl h
  have hne : st.grid.params.dy.data ≠ [] := by
    intro h; have := hev.first; rw [h] at this; cases this
  have k0 : st.grid.params.dy.data.headD .nan = .fin a := by
    rw [List.headD_eq_head?_getD, List.head?_eq_getElem?, hev.first]; rfl
  have k1 : st.grid.params.dy.data.getLastD .nan = .fin b := by
    rw [List.getLastD_eq_getLast?, List.getLast?_eq_getElem?, hev.length, hev.last hn]; rfl
  have hgs : st.grid.params.gridShape.1 = n := by rw [hs.shaped.grid]; exact hev.length
  obtain ⟨res, s'', r1, -, r2, r3⟩ := C47_closest_partial st.grid hs hi m vr vi vt vp R I T p a b hq k0 k1
  rw [h1] at r1
  obtain ⟨rfl, rfl⟩ : Except.ok cl = res ∧ s' = s'' := by
    injection r1 with h h'
    exact ⟨h, h'⟩
  by_cases hex : ∃ y x r u v w, y < st.grid.params.gridShape.1 ∧ x < st.grid.params.gridShape.2.1 ∧
      r < st.grid.params.gridShape.2.2 ∧ Shown st.grid m (flat st.grid y x r) u v w
  swap
  · push Not at hex
    cases r2 hex
  obtain ⟨c', y, x, r, u, v, w, hc, hind, hy, -, -, hdy, -⟩ := r3 hex
  cases hc
  rw [hgs] at hy
  rw [hind] at h0
  have hnum : vp.num = .fin p := isNumber_num hq.impact
  rw [h2, hind]
  simp only [hnum]
  rw [rowPosition_fin _ a b p y k0 k1 hne, hev.length]
  exact ⟨_, _, (List.append_assoc st.log [_, _, _, _] [_, _]).symm,
    (rowAt_ne a b p hab ha hb _ n hn hev y hy h0 _ hdy).symm⟩

/-- A grid that meets the hypotheses of `C98_closest_partial` and of `C98_false_impact`: with `dy = -1, 0, 1`, the
query for the parameters of the disk at the centre (1, 1) logs another impact parameter than the one returned. -/
theorem C98_false_impact_witness : ∃ (s : Shallot ℝ) (a b c : ℝ) (cl : Shallot.Closest ℝ) (l : List (GridMsg ℝ)),
    Sound s ∧ Evenly s.params.dy.data (-1) 1 3 ∧ cl.indices.1 = 2 ∧ cl.coordinates.1 = .fin 1 ∧
    (GLog.closestPoint (.float (.fin a)) (.float (.fin b)) (.float (.fin c)) (.int 1) (.bool true) ⟨s, []⟩).1 =
      .ok cl ∧
    (GLog.closestPoint (.float (.fin a)) (.float (.fin b)) (.float (.fin c)) (.int 1) (.bool true) ⟨s, []⟩).2.log =
      l ++ [.closest .impactParameter (.fin 1) (.fin (1 / 3)), .fit cl.distance] := by
  obtain ⟨s, a, b, c, hs, hi, hgs, hev, hdy, hsh, hq, ⟨cl, s', hcl, -⟩, -⟩ := C47_false_witness
  have hne : s.params.dy.data ≠ [] := by
    intro h; have := hev.first; rw [h] at this; cases this
  have k0 : s.params.dy.data.headD .nan = .fin (-1) := by
    rw [List.headD_eq_head?_getD, List.head?_eq_getElem?, hev.first]; rfl
  have k1 : s.params.dy.data.getLastD .nan = .fin 1 := by
    rw [List.getLastD_eq_getLast?, List.getLast?_eq_getElem?, hev.length, hdy]; rfl
  have hok := (closestPoint_follows (.float (.fin a)) (.float (.fin b)) (.float (.fin c)) (.int 1) (.bool true)
    (⟨s, []⟩ : GLog ℝ)).1
  simp only [hcl] at hok
  obtain ⟨t, h1, h2⟩ := (C98_closest_partial ⟨s, []⟩ hs _ _ _ _ true).2 cl hok
  obtain ⟨res, s'', r1, -, -, r3⟩ := C47_closest_partial s hs hi true _ _ _ _ a b c 1 (-1) 1 hq k0 k1
  rw [hcl] at r1
  obtain ⟨rfl, rfl⟩ : Except.ok cl = res ∧ s' = s'' := by
    injection r1 with h h'
    exact ⟨h, h'⟩
  obtain ⟨c', y, x, r, u, v, w, hc, hind, hy, -, -, hd, -, -, -, -, hmin⟩ := r3
    ⟨2, 2, 1, a, b, c, by rw [hgs]; norm_num, by rw [hgs]; norm_num, by rw [hgs]; norm_num, hsh⟩
  cases hc
  have hm := hmin 2 2 1 a b c (by rw [hgs]; norm_num) (by rw [hgs]; norm_num) (by rw [hgs]; norm_num) hsh
  rw [hgs] at hy hm
  have row2 : rowAt (-1) 1 1 3 2 = 1 / 3 := by unfold rowAt; norm_num
  have h3 : apart a b c 1 a b c (1 / 3) ≤ 2 / 3 := by
    unfold apart
    rw [Real.sqrt_le_left (by norm_num)]
    norm_num
  have hy2 : y = 2 := by
    have : y = 0 ∨ y = 1 ∨ y = 2 := by simp only at hy; omega
    have far : ∀ k, rowAt (-1) 1 1 3 k = -(10 ^ 7) → y ≠ k := by
      rintro k hk rfl
      simp only [hk, row2] at hm
      have h4 : (1 : ℝ) ≤ apart a b c 1 u v w (-(10 ^ 7)) := by
        unfold apart
        apply Real.le_sqrt_of_sq_le
        nlinarith [sq_nonneg (u - a), sq_nonneg (v - b), sq_nonneg (w - c)]
      exact absurd (h4.trans (hm.trans h3)) (by norm_num)
    rcases this with h | h | h
    · exact absurd h (far 0 (by unfold rowAt; norm_num))
    · exact absurd h (far 1 (by unfold rowAt; norm_num))
    · exact h
  subst hy2
  rw [hdy] at hd
  have hnum : (PyVal.int 1 : PyVal ℝ).num = .fin 1 := isNumber_num hq.impact
  have hlog : ∃ l, (GLog.closestPoint (.float (.fin a)) (.float (.fin b)) (.float (.fin c)) (.int 1) (.bool true)
      ⟨s, []⟩).2.log = l ++ [.closest .impactParameter (.fin 1) (.fin (1 / 3)), .fit cl.distance] := by
    rw [h2, hind]
    simp only [hnum]
    rw [rowPosition_fin _ (-1) 1 1 2 k0 k1 hne, hev.length, row2]
    exact ⟨_, (List.append_assoc [] [_, _, _, _] [_, _]).symm⟩
  obtain ⟨l, hl⟩ := hlog
  exact ⟨s, a, b, c, cl, l, hs, hev, by rw [hind], (Option.some.inj hd).symm, hok, hl⟩


section
variable {K : Type} [Field K] [LinearOrder K] [IsStrictOrderedRing K] [RealFns K] [FloorRing K]

/-! ## Building -/

/-- `d` is the largest absolute value in the list, NaN not counted; NaN if there is none. -/
def Spec.LargestOf (l : List (XF K)) (d : XF K) : Prop :=
  (d = .nan ∧ ∀ x ∈ l, x = .nan) ∨
    (∃ x ∈ l, x ≠ .nan ∧ d = x.abs) ∧ ∀ x ∈ l, x ≠ .nan → LessEq x.abs d

theorem abs_nan_iff (x : XF K) : x.abs = .nan ↔ x = .nan := by
  cases x <;> simp [XF.abs]

theorem largest_spec (l : List (XF K)) : LargestOf l (Shallot.floatOf (nanmax (l.map XF.abs))) := by
  obtain ⟨h1, h2⟩ := nanmax_spec (l.map XF.abs)
  rcases h : nanmax (l.map XF.abs) with _ | d
  · left
    refine ⟨rfl, fun x hx => (abs_nan_iff x).1 (h1.1 h _ (List.mem_map_of_mem hx))⟩
  · right
    obtain ⟨h3, h4, h5⟩ := h2 d h
    obtain ⟨x, hx, rfl⟩ := List.mem_map.1 h3
    exact ⟨⟨x, hx, fun h => h4 ((abs_nan_iff x).2 h), rfl⟩,
      fun z hz hn => h5 _ (List.mem_map_of_mem hz) fun h => hn ((abs_nan_iff z).1 h)⟩

/-- What `diagnose_fxfy_resolution` logs: the largest deviation in the diagnostic map that it made; nothing if it
raises. -/
theorem C98_deviation (st : GLog K) :
    (∀ e, (GLog.diagnose st).1 = .error e → (GLog.diagnose st).2.log = st.log) ∧
    ((GLog.diagnose st).1 = .ok () → ∃ p d, (GLog.diagnose st).2.grid.diagnosticMap = some p ∧
      LargestOf p.data.data d ∧ (GLog.diagnose st).2.log = st.log ++ [.deviation d]) := by
  have hd : ∀ s s' : Shallot K, Shallot.diagnose s = (.ok (), s') → ∃ p, s'.diagnosticMap = some p := by
    intro s s' h
    unfold Shallot.diagnose at h
    rw [Meth.get_bind] at h
    rcases hp : GProp.new .diagnosticMap .eclipseDuration _ s.params with e | p
    · rw [hp] at h; cases h
    · rw [hp, Meth.lift_ok_bind] at h
      cases h
      exact ⟨p, rfl⟩
  rcases h : Shallot.diagnose st.grid with ⟨e | _, s'⟩
  · have hq : GLog.quiet Shallot.diagnose st = (.error e, ⟨s', st.log⟩) := by unfold GLog.quiet; rw [h]
    have : GLog.diagnose st = (.error e, ⟨s', st.log⟩) := bind_err _ _ _ _ _ hq
    rw [this]
    exact ⟨fun _ _ => rfl, fun h => by cases h⟩
  · have hq : GLog.quiet Shallot.diagnose st = (.ok (), ⟨s', st.log⟩) := by unfold GLog.quiet; rw [h]
    have : GLog.diagnose st = (.ok (), ⟨s', st.log ++ [.deviation (GLog.largest s')]⟩) :=
      bind_ok _ _ _ _ _ hq
    obtain ⟨p, hp⟩ := hd _ _ h
    rw [this]
    refine ⟨fun _ h => (nomatch h), fun _ => ⟨p, _, hp, largest_spec _, ?_⟩⟩
    unfold GLog.largest
    rw [hp]

theorem buildRows_follows (num : ℕ) : ∀ n y, Follows (K := K) (GLog.buildRows num n y) (Shallot.buildRows n y)
  | 0, _ => .pure _
  | n + 1, y => .say_bind (.self fun _ => .bind (.quiet _) fun _ => buildRows_follows num n (y + 1))

theorem build_follows (y : ℕ) : Follows (K := K) (GLog.build y) (Shallot.build y) := by
  unfold GLog.build Shallot.build
  have h := fun s : Shallot K => buildRows_follows (K := K) s.params.sliceShape.1 (s.params.sliceShape.1 - y) y
  by_cases hy : y = 0
  · rw [if_pos hy, if_pos hy]
    exact .bind (.quiet _) fun _ => .self fun s => .bind (h s) fun _ => .quiet _
  · rw [if_neg hy, if_neg hy]
    exact .self fun s => .bind (h s) fun _ => .quiet _

theorem complete_follows : Follows (K := K) GLog.complete Shallot.complete :=
  .bind (build_follows 0) fun _ => .bind (.quiet _) fun _ => diagnose_follows

/-- The lines for `j` rows of `n`. -/
def Spec.rowLines (n j : ℕ) : List (GridMsg K) := (List.range j).map fun y => .building (y + 1) n

theorem rowLines_succ (n j : ℕ) : rowLines (K := K) n (j + 1) = rowLines n j ++ [.building (j + 1) n] := by
  unfold rowLines
  rw [List.range_succ, List.map_append]
  rfl

theorem buildRows_log (num : ℕ) : ∀ (n y : ℕ) (st : GLog K), st.log = rowLines num y →
    (∃ st', GLog.buildRows num n y st = (.ok (), st') ∧ st'.log = rowLines num (y + n)) ∨
    ∃ e st' j, GLog.buildRows num n y st = (.error e, st') ∧ j ≤ y + n ∧ st'.log = rowLines num j
  | 0, y, st, h => Or.inl ⟨st, rfl, h⟩
  | n + 1, y, st, h => by
    have h0 : GLog.buildRows num (n + 1) y st = (GLog.quiet (Shallot.buildRow y st.grid.params.sliceShape.2 0) >>=
      fun _ => GLog.buildRows num n (y + 1)) ⟨st.grid, rowLines num (y + 1)⟩ := by
      rw [rowLines_succ, ← h]
      rfl
    rw [h0]
    rcases hr : GLog.quiet (Shallot.buildRow y st.grid.params.sliceShape.2 0)
      (⟨st.grid, rowLines num (y + 1)⟩ : GLog K) with ⟨e | _, st'⟩
    · refine Or.inr ⟨e, st', y + 1, bind_err _ _ _ _ _ hr, by omega, ?_⟩
      have := congrArg (·.2.log) hr
      exact this.symm
    · rw [bind_ok _ _ _ _ _ hr]
      have h1 : st'.log = rowLines num (y + 1) := (congrArg (·.2.log) hr).symm
      have := buildRows_log num n (y + 1) st' h1
      rw [show y + (n + 1) = y + 1 + n by omega]
      exact this

theorem initialise_params (s s' : Shallot K) (h : Shallot.initialise s = (.ok (), s')) : s'.params = s.params := by
  unfold Shallot.initialise at h
  rw [Meth.get_bind] at h
  rcases h1 : GProp.new .diskRadius .eclipseDuration (Shallot.emptyCube s.params) s.params with e | a
  · rw [h1] at h; cases h
  rcases h2 : GProp.new .inclination .degree (Shallot.emptyCube s.params) s.params with e | b
  · rw [h1, h2] at h; cases h
  rcases h3 : GProp.new .tilt .degree (Shallot.emptyCube s.params) s.params with e | c
  · rw [h1, h2, h3] at h; cases h
  rcases h4 : GProp.new .fxMap .none (Shallot.emptyCube s.params) s.params with e | d
  · rw [h1, h2, h3, h4] at h; cases h
  rcases h5 : GProp.new .fyMap .none (Shallot.emptyCube s.params) s.params with e | f
  · rw [h1, h2, h3, h4, h5] at h; cases h
  rw [h1, h2, h3, h4, h5] at h
  cases h
  rfl

theorem build_log (s : Shallot K) :
    (∃ st', GLog.build 0 ⟨s, []⟩ = (.ok (), st') ∧ st'.log = rowLines s.params.sliceShape.1 s.params.sliceShape.1) ∨
    ∃ e st' j, GLog.build 0 ⟨s, []⟩ = (.error e, st') ∧ j ≤ s.params.sliceShape.1 ∧
      st'.log = rowLines s.params.sliceShape.1 j := by
  unfold GLog.build
  rw [if_pos rfl]
  rcases h : Shallot.initialise s with ⟨e | _, s1⟩
  · have hq : GLog.quiet Shallot.initialise (⟨s, []⟩ : GLog K) = (.error e, ⟨s1, []⟩) := by
      unfold GLog.quiet; simp only [h]
    exact Or.inr ⟨e, _, 0, bind_err _ _ _ _ _ hq, Nat.zero_le _, rfl⟩
  have hq : GLog.quiet Shallot.initialise (⟨s, []⟩ : GLog K) = (.ok (), ⟨s1, []⟩) := by
    unfold GLog.quiet; simp only [h]
  rw [bind_ok _ _ _ _ _ hq]
  beta_reduce
  have hself : ∀ f : Shallot K → Meth (GLog K) Unit, (GLog.self >>= f) ⟨s1, []⟩ = f s1 ⟨s1, []⟩ := fun _ => rfl
  rw [hself, initialise_params s s1 h, Nat.sub_zero]
  rcases buildRows_log s.params.sliceShape.1 s.params.sliceShape.1 0 ⟨s1, []⟩ rfl with
    ⟨st', h1, h2⟩ | ⟨e, st', j, h1, h2, h3⟩
  · rw [bind_ok _ _ _ _ _ h1]
    rw [Nat.zero_add] at h2
    rcases h3 : Shallot.recolorAll st'.grid with ⟨e | _, s2⟩
    · exact Or.inr ⟨e, ⟨s2, st'.log⟩, _, by unfold GLog.quiet; simp only [h3], le_rfl, h2⟩
    · exact Or.inl ⟨⟨s2, st'.log⟩, by unfold GLog.quiet; simp only [h3], h2⟩
  · rw [bind_err _ _ _ _ _ h1]
    exact Or.inr ⟨e, st', j, rfl, by omega, h3⟩

/-- What building a grid logs.  A line for every row, from 1 to their number, and the largest deviation in its
diagnostic map.  The number is that of the rows that are built, before the grid is extended.  A constructor that
raises logs the first of these lines at most, and no deviation.  The messages change nothing in what it returns. -/
theorem C98_new (v k : PyVal K) (g : GridParams K) :
    ((GLog.new v k g).1, (GLog.new v k g).2.1) = Shallot.new v k g ∧
    (∀ s, (GLog.new v k g).1 = .ok s → ∃ p d, s.diagnosticMap = some p ∧ LargestOf p.data.data d ∧
      (GLog.new v k g).2.2 = rowLines g.sliceShape.1 g.sliceShape.1 ++ [.deviation d]) ∧
    ∀ e, (GLog.new v k g).1 = .error e → ∃ j ≤ g.sliceShape.1, (GLog.new v k g).2.2 = rowLines g.sliceShape.1 j := by
  unfold GLog.new Shallot.new
  rcases number v (.bool true) (.int 1) with e | n
  · simp only
    exact ⟨trivial, fun s h => (nomatch h), fun _ _ => ⟨0, Nat.zero_le _, rfl⟩⟩
  rcases boolean k with e | keep
  · simp only
    exact ⟨trivial, fun s h => (nomatch h), fun _ _ => ⟨0, Nat.zero_le _, rfl⟩⟩
  have hf := complete_follows (⟨Shallot.bare g n keep, []⟩ : GLog K)
  have hg : (Shallot.bare g n keep).params = g := rfl
  have hlog : (∀ st', GLog.complete ⟨Shallot.bare g n keep, []⟩ = (.ok (), st') →
      ∃ p d, st'.grid.diagnosticMap = some p ∧ LargestOf p.data.data d ∧
        st'.log = rowLines g.sliceShape.1 g.sliceShape.1 ++ [.deviation d]) ∧
      ∀ e st', GLog.complete ⟨Shallot.bare g n keep, []⟩ = (.error e, st') →
        ∃ j ≤ g.sliceShape.1, st'.log = rowLines g.sliceShape.1 j := by
    unfold GLog.complete
    rcases build_log (Shallot.bare g n keep) with ⟨st1, h1, h2⟩ | ⟨e, st1, j, h1, h2, h3⟩
    · rw [bind_ok _ _ _ _ _ h1]
      rcases h3 : Shallot.extendGrid st1.grid with ⟨e | _, s2⟩
      · have hq : GLog.quiet Shallot.extendGrid st1 = (.error e, ⟨s2, st1.log⟩) := by unfold GLog.quiet; rw [h3]
        rw [bind_err _ _ _ _ _ hq]
        refine ⟨fun _ h => (nomatch h), fun e st' h => ?_⟩
        cases h
        exact ⟨_, le_rfl, h2⟩
      · have hq : GLog.quiet Shallot.extendGrid st1 = (.ok (), ⟨s2, st1.log⟩) := by unfold GLog.quiet; rw [h3]
        rw [bind_ok _ _ _ _ _ hq]
        have hd := C98_deviation (⟨s2, st1.log⟩ : GLog K)
        refine ⟨fun st' h => ?_, fun e st' h => ?_⟩
        · rw [h] at hd
          obtain ⟨p, d, k1, k2, k3⟩ := hd.2 rfl
          exact ⟨p, d, k1, k2, by rw [k3, h2]; rfl⟩
        · rw [h] at hd
          exact ⟨_, le_rfl, (hd.1 e rfl).trans h2⟩
    · rw [bind_err _ _ _ _ _ h1]
      refine ⟨fun _ h => (nomatch h), fun e st' h => ?_⟩
      cases h
      exact ⟨j, h2, h3⟩
  simp only
  rcases hc : GLog.complete (⟨Shallot.bare g n keep, []⟩ : GLog K) with ⟨e | _, st'⟩ <;>
    rcases hp : Shallot.complete (Shallot.bare g n keep) with ⟨e' | _, s'⟩ <;>
    simp only [hc, hp] at hf hlog ⊢
  · obtain ⟨h1, rfl⟩ := hf
    cases h1
    exact ⟨rfl, fun s h => (nomatch h), fun e h => hlog.2 _ _ rfl⟩
  · cases hf.1
  · cases hf.1
  · obtain ⟨-, rfl⟩ := hf
    refine ⟨rfl, fun s h => ?_, fun e h => by cases h⟩
    cases h
    exact hlog.1 _ rfl

end

/-! ## Cases -/

/-- The grid with 2 × 2 centres that are built: the log of its constructor. -/
example : ∃ (s : Shallot ℝ) (p : GProp ℝ) (d : XF ℝ), (GLog.new (.int 100) (.bool false) throwAway).1 = .ok s ∧
    s.diagnosticMap = some p ∧ LargestOf p.data.data d ∧
    (GLog.new (.int 100) (.bool false) throwAway).2.2 = [.building 1 2, .building 2 2, .deviation d] := by
  obtain ⟨s, -, h1, -⟩ := throwAway_grid
  obtain ⟨h2, h3, -⟩ := C98_new (.int 100) (.bool false) throwAway
  rw [h1] at h2
  have h4 : (GLog.new (.int 100) (.bool false) throwAway).1 = .ok s := congrArg Prod.fst h2
  obtain ⟨p, d, h5, h6, h7⟩ := h3 s h4
  exact ⟨s, p, d, h4, h5, h6, h7⟩

/-- A session on a grid with two gradients and a fit.  The eclipse parameters are set, which drops both; the
duration is a `np.longdouble`, so the gradient that is said to be added next is not (`C98_false_added`); then
there is none to remove. -/
theorem C98_false_added_witness : ∃ s : Shallot ℝ, Sound s ∧ numGradients s = 2 ∧ s.gradientFit ≠ none ∧
    (runGridLog [.eclipse (.npFloat .w128 (.fin 1)) (.int 1) (.int 0),
      .add (column [.fin 0]) (column [.fin 0]) .none .none, .remove (.int 0)] ⟨s, []⟩).log =
        [.dropped, .cleared, .adding 1, .noGradients] ∧
    numGradients (runGrid [.eclipse (.npFloat .w128 (.fin 1)) (.int 1) (.int 0),
      .add (column [.fin 0]) (column [.fin 0]) .none .none, .remove (.int 0)] s) = 0 := by
  obtain ⟨-, s, -, -, -, hs, -, -, ⟨l, hl, hl2⟩, p, hp⟩ := throwAway_fit
  have n1 : NotNegative (.npFloat .w128 (.fin 1) : PyVal ℝ) :=
    ⟨.fin 1, Or.inr ⟨rfl, .npFloat _ _⟩, by rw [less_iff]; simp [XF.lt]⟩
  have n2 : NotNegative (.int 1 : PyVal ℝ) := ⟨.fin 1, Or.inl ⟨1, .int 1, by simp⟩, by rw [less_iff]; simp [XF.lt]⟩
  have n3 : Fraction (.int 0 : PyVal ℝ) :=
    ⟨.fin 0, Or.inl ⟨0, .int 0, by simp⟩, by rw [less_iff]; simp [XF.lt], by rw [less_iff]; simp [XF.lt]⟩
  obtain ⟨t, ht⟩ : ∃ t : Shallot ℝ, t =
    { s with
      eclipseDuration := some (.npFloat .w128 (.fin 1)), velocity := some (.int 1), limb := some (.int 0)
      gradients := none, gradientFit := none } := ⟨_, rfl⟩
  have h1 : GLog.setEclipseParameters (.npFloat .w128 (.fin 1)) (.int 1) (.int 0) ⟨s, []⟩ =
      (.ok (), ⟨t, [.dropped, .cleared]⟩) := by
    rcases storeEclipse_cases (.npFloat .w128 (.fin 1)) (.int 1) (.int 0) s with
      ⟨-, -, -, h⟩ | ⟨-, -, h, -⟩ | ⟨-, h, -⟩ | ⟨h, -⟩
    · unfold GLog.setEclipseParameters
      have hq : GLog.quiet (Shallot.storeEclipse (.npFloat .w128 (.fin 1)) (.int 1) (.int 0)) (⟨s, []⟩ : GLog ℝ) =
          (.ok (), ⟨{ s with
            eclipseDuration := some (.npFloat .w128 (.fin 1)), velocity := some (.int 1)
            limb := some (.int 0) }, []⟩) := by
        unfold GLog.quiet; simp only [h]
      rw [bind_ok _ _ _ _ _ hq]
      have hself : ∀ (f : Shallot ℝ → Meth (GLog ℝ) Unit) (st : GLog ℝ), (GLog.self >>= f) st = f st.grid st :=
        fun _ _ => rfl
      rw [hself]
      simp only [hl]
      rw [bind_ok _ _ _ _ _ (show GLog.quiet (Meth.modify ({ · with gradients := none })) _ = (.ok (), _) from rfl),
        bind_ok _ _ _ _ _ (show GLog.say .dropped _ = (.ok (), _) from rfl)]
      unfold GLog.resetFit
      rw [hself]
      simp only [hp, Option.isSome_some, if_true]
      rw [ht]
      rfl
    · exact absurd n3 h
    · exact absurd n2 h
    · exact absurd n1 h
  have htr : t.ready = true := by rw [ht]; rfl
  obtain ⟨er, h2⟩ := C98_false_added (⟨t, [.dropped, .cleared]⟩ : GLog ℝ) htr (.fin 1) (by rw [ht]) [.fin 0] [.fin 0]
    rfl (by simp [less_iff]) .none .none
  have h3 : GLog.removeGradients (.int 0) (⟨t, [.dropped, .cleared, .adding 1]⟩ : GLog ℝ) =
      (.ok (), ⟨t, [.dropped, .cleared, .adding 1, .noGradients]⟩) := by
    unfold GLog.removeGradients
    have hself : ∀ (f : Shallot ℝ → Meth (GLog ℝ) Unit) (st : GLog ℝ), (GLog.self >>= f) st = f st.grid st :=
      fun _ _ => rfl
    rw [hself]
    have : t.gradients = none := by rw [ht]
    simp only [this]
    rfl
  have hrun : runGridLog [.eclipse (.npFloat .w128 (.fin 1)) (.int 1) (.int 0),
      .add (column [.fin 0]) (column [.fin 0]) .none .none, .remove (.int 0)] (⟨s, []⟩ : GLog ℝ) =
      ⟨t, [.dropped, .cleared, .adding 1, .noGradients]⟩ := by
    show (GLog.removeGradients (.int 0) (GLog.addGradients (column [.fin 0]) (column [.fin 0]) .none .none
      (GLog.setEclipseParameters (.npFloat .w128 (.fin 1)) (.int 1) (.int 0) ⟨s, []⟩).2).2).2 = _
    rw [h1, h2]
    show (GLog.removeGradients (.int 0) (⟨t, [.dropped, .cleared, .adding 1]⟩ : GLog ℝ)).2 = _
    rw [h3]
  refine ⟨s, hs, by unfold numGradients; rw [hl]; exact hl2, by rw [hp]; simp, by rw [hrun], ?_⟩
  have := runGridLog_grid [.eclipse (.npFloat .w128 (.fin 1)) (.int 1) (.int 0),
      .add (column [.fin 0]) (column [.fin 0]) .none .none, .remove (.int 0)] (⟨s, []⟩ : GLog ℝ)
  rw [hrun] at this
  rw [← this, ht]
  rfl

/-- The hypotheses of `C98_extracting` are met: all solutions, in a grid with a fit. -/
example : ∃ st : GLog ℝ, Sound st.grid ∧ st.grid.gradientFit ≠ none ∧
    (GLog.extractSolutions .none st).2.log = [.extracting (unmasked st.grid).card (unmasked st.grid).card] := by
  obtain ⟨-, s, -, -, -, hs, -, -, -, p, hp⟩ := throwAway_fit
  obtain ⟨n, h1, h2, -⟩ := (C98_extracting (⟨s, []⟩ : GLog ℝ) hs .none _ (Or.inl ⟨rfl, rfl⟩)).2
    ⟨Int.natCast_nonneg _, le_rfl⟩
  rw [hp] at h2
  obtain rfl := Int.ofNat_inj.1 h1
  exact ⟨⟨s, []⟩, hs, by rw [hp]; simp, h2⟩

end Beyonce
