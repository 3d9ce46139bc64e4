import Verif.RingLog
import Verif.Props.RingSystemInv

/-!
# Properties C87 and C88: the log of a ring system
-/

set_option linter.unusedSectionVars false

namespace Beyonce
open Spec

section
variable {K : Type} [Field K] [LinearOrder K] [FloorRing K]

/-- A call of a method of a system, without the log: how it ends and the system it leaves. -/
def Spec.plainCall (rnd : K → K) (s : RSys K) : SysOp K → Except Err Unit × RSys K
  | .add i r => ((addRing i ⟨s, r⟩).1, (addRing i ⟨s, r⟩).2.sys)
  | .remove i => removeRing i s
  | .replace i r => ((replaceRing i ⟨s, r⟩).1, (replaceRing i ⟨s, r⟩).2.sys)
  | .split nd => splitRings rnd nd s
  | .merge tol => mergeRings rnd tol s

/-- A call of a method of a system with a log. -/
def loggedCall (rnd : K → K) (st : LogState K) : SysOp K → Except Err Unit × LogState K
  | .add i r => addRingLogged i { st with ring := r }
  | .remove i => removeRingLogged i st
  | .replace i r => replaceRingLogged i { st with ring := r }
  | .split nd => splitRingsLogged rnd nd st
  | .merge tol => mergeRingsLogged rnd tol st

/-- A sequence of calls by a user who catches every exception. -/
def runLogged (rnd : K → K) (ops : List (SysOp K)) (st : LogState K) : LogState K :=
  ops.foldl (fun st op => (loggedCall rnd st op).2) st

/-- The name of the method in the log. -/
def Spec.methodName : SysOp K → String
  | .add _ _ => "add_ring()"
  | .remove _ => "remove_ring()"
  | .replace _ _ => "replace_ring()"
  | .split _ => "split_rings()"
  | .merge _ => "merge_rings()"

/-- The last line of the log of a successful call, given the numbers of rings before and after. -/
def Spec.LastLine (old new : ℕ) : SysOp K → LogMsg K → Prop
  | .add i _, m => m = .added i
  | .remove i, m => m = .removed i
  | .replace i _, m => m = .replaced i
  | .split nd, m => ∀ ds, Asks old nd ds → m = .split old new
  | .merge _, m => m = .merged old new

/-- Not a text of the system. -/
def Spec.NoText (l : List (LogMsg K)) : Prop := ∀ a x y, LogMsg.changed a x y ∉ l

/-- The texts before and after in a log. -/
def Spec.texts (l : List (LogMsg K)) : List (SysReport K × SysReport K) :=
  l.filterMap fun
    | .changed _ x y => some (x, y)
    | _ => none

/-- Changes that lead from one text to another: each begins with the text where the last ended. -/
def Spec.Linked (start : SysReport K) : List (SysReport K × SysReport K) → SysReport K → Prop
  | [], stop => start = stop
  | (x, y) :: rest, stop => x = start ∧ Linked y rest stop

/-! ## Helper lemmas -/

omit [FloorRing K] in
theorem changeRings_ok (a : String) (rs : List (RingObj K)) (st : LogState K) :
    changeRings a (.ok rs) st = (.ok (), ⟨{ st.sys with rings := rs }, st.ring,
      st.log ++ [.changed a st.sys.report { st.sys with rings := rs }.report]⟩) := rfl

omit [FloorRing K] in
theorem changeRings_error (a : String) (e : Err) (st : LogState K) :
    changeRings a (.error e) st = (.error e, st) := rfl

omit [FloorRing K] in
theorem overrideMsgs_noText (s : RSys K) (r : RingObj K) : NoText (overrideMsgs s r) := by
  intro a x y h
  unfold overrideMsgs at h
  split_ifs at h <;> simp at h

/-- Only the angles of the caller's ring are changed. -/
theorem overrideCallersRing_sys (s : RSys K) (r : RingObj K) :
    (overrideCallersRing ⟨s, r⟩).2.sys = s := rfl

theorem mapM_length {α β : Type} (f : α → Except Err β) (l : List α) (l' : List β)
    (h : l.mapM f = .ok l') : l'.length = l.length := by
  induction l generalizing l' with
  | nil => simp only [List.mapM_nil, pure, Except.pure, Except.ok.injEq] at h; subst h; rfl
  | cons x xs ih =>
    rw [List.mapM_cons] at h
    cases hx : f x with
    | error e => rw [hx] at h; cases h
    | ok y =>
      cases hs : xs.mapM f with
      | error e => rw [hx, hs] at h; cases h
      | ok ys =>
        rw [hx, hs] at h
        cases h
        simp [ih ys hs]

omit [FloorRing K] in
theorem splitLoop_length (rnd : K → K) (s : RSys K) (l : List (RingObj K × ℕ))
    (rs : List (RingObj K)) (h : splitLoop rnd s l = .ok rs) :
    rs.length = (l.map Prod.snd).sum := by
  induction l generalizing rs with
  | nil => cases h; rfl
  | cons p l ih =>
    obtain ⟨r, d⟩ := p
    rw [splitLoop] at h
    cases hx : (List.range d).mapM (ringlet rnd s r d) with
    | error e => rw [hx] at h; cases h
    | ok y =>
      cases hs : splitLoop rnd s l with
      | error e => rw [hx, hs] at h; cases h
      | ok ys =>
        rw [hx, hs] at h
        cases h
        simp [ih ys hs, mapM_length _ _ _ hx]

variable [IsStrictOrderedRing K]

/-- A logged call is the plain call plus messages. -/
theorem loggedCall_spec (rnd : K → K) (st : LogState K) (op : SysOp K) :
    (loggedCall rnd st op).1 = (plainCall rnd st.sys op).1 ∧
    (loggedCall rnd st op).2.sys = (plainCall rnd st.sys op).2 ∧
    ∃ ov : List (LogMsg K), NoText ov ∧ (ov = [] ∨ ∃ r, (∃ i, op = .add i r ∨ op = .replace i r) ∧
        ov = overrideMsgs st.sys r) ∧
      ((plainCall rnd st.sys op).1 = .ok () → ∃ last,
        LastLine st.sys.rings.length (plainCall rnd st.sys op).2.rings.length op last ∧
        (∀ a x y, last ≠ .changed a x y) ∧
        (∀ i r, op = .add i r ∨ op = .replace i r → ov = overrideMsgs st.sys r) ∧
        (loggedCall rnd st op).2.log = st.log ++ ov ++
          [.changed (methodName op) st.sys.report (plainCall rnd st.sys op).2.report, last]) ∧
      (∀ e, (plainCall rnd st.sys op).1 = .error e →
        (plainCall rnd st.sys op).2 = st.sys ∧ (loggedCall rnd st op).2.log = st.log ++ ov ∧
        (GoodGeometry st.sys → ov = [])) := by
  obtain ⟨s, r0, log⟩ := st
  cases op with
  | add i r =>
    simp only [loggedCall, plainCall, addRingLogged, addRing, Meth.get_bind, methodName, LastLine]
    cases preventOverlap s i r false with
    | error e =>
      simp only [Meth.lift_error_bind]
      exact ⟨by trivial, by trivial, [], by simp [NoText], Or.inl rfl, by simp, by simp⟩
    | ok u =>
      simp only [Meth.lift_ok_bind]
      simp only [Meth.bind_apply, overrideLogged]
      cases hc : overrideCallersRing ⟨s, r⟩ with
      | mk res sr =>
      have hsys := overrideCallersRing_sys s r
      rw [hc] at hsys
      simp only at hsys
      simp only [hc]
      cases res with
      | error e =>
        exact ⟨by trivial, by trivial, overrideMsgs s r, overrideMsgs_noText s r,
          Or.inr ⟨r, ⟨i, Or.inl rfl⟩, rfl⟩, by simp, fun e' _ => ⟨by simp [hsys], by simp, fun hg => by
            rw [overrideCallersRing_good hg] at hc; cases hc⟩⟩
      | ok u =>
        simp only [Meth.get_apply, changeRings_ok, emit, Meth.modify_apply]
        refine ⟨by trivial, by trivial, overrideMsgs s r, overrideMsgs_noText s r,
          Or.inr ⟨r, ⟨i, Or.inl rfl⟩, rfl⟩, fun _ => ⟨.added i, rfl, by simp, by simp, ?_⟩, by simp⟩
        simp [hsys]
  | replace i r =>
    simp only [loggedCall, plainCall, replaceRingLogged, replaceRing, Meth.get_bind, methodName,
      LastLine]
    cases number i (.bool true) (.int 0) (.int ((s.rings.length : ℤ) - 1)) with
    | error e =>
      simp only [Meth.lift_error_bind]
      exact ⟨by trivial, by trivial, [], by simp [NoText], Or.inl rfl, by simp, by simp⟩
    | ok v =>
    simp only [Meth.lift_ok_bind]
    cases preventOverlap s i r true with
    | error e =>
      simp only [Meth.lift_error_bind]
      exact ⟨by trivial, by trivial, [], by simp [NoText], Or.inl rfl, by simp, by simp⟩
    | ok u =>
      simp only [Meth.lift_ok_bind]
      simp only [Meth.bind_apply, overrideLogged]
      cases hc : overrideCallersRing ⟨s, r⟩ with
      | mk res sr =>
      have hsys := overrideCallersRing_sys s r
      rw [hc] at hsys
      simp only at hsys
      simp only [hc]
      cases res with
      | error e =>
        exact ⟨by trivial, by trivial, overrideMsgs s r, overrideMsgs_noText s r,
          Or.inr ⟨r, ⟨i, Or.inr rfl⟩, rfl⟩, by simp, fun e' _ => ⟨by simp [hsys], by simp, fun hg => by
            rw [overrideCallersRing_good hg] at hc; cases hc⟩⟩
      | ok u =>
        simp only [Meth.get_apply, changeRings_ok, emit, Meth.modify_apply]
        refine ⟨by trivial, by trivial, overrideMsgs s r, overrideMsgs_noText s r,
          Or.inr ⟨r, ⟨i, Or.inr rfl⟩, rfl⟩, fun _ => ⟨.replaced i, rfl, by simp, by simp, ?_⟩, by simp⟩
        simp [hsys]
  | remove i =>
    simp only [loggedCall, plainCall, removeRingLogged, removeRing, Meth.get_bind, methodName,
      LastLine]
    cases number i (.bool true) (.int 0) (.int ((s.rings.length : ℤ) - 1)) with
    | error e =>
      simp only [Meth.lift_error_bind]
      exact ⟨by trivial, by trivial, [], by simp [NoText], Or.inl rfl, by simp, by simp⟩
    | ok v =>
    simp only [Meth.lift_ok_bind]
    cases npDelete s.rings i with
    | error e =>
      simp only [Meth.bind_apply, changeRings_error, Meth.lift_apply]
      exact ⟨by trivial, by trivial, [], by simp [NoText], Or.inl rfl, by simp, by simp⟩
    | ok rs =>
      simp only [Meth.bind_apply, changeRings_ok, Meth.lift_apply, emit, Meth.modify_apply]
      exact ⟨by trivial, by trivial, [], by simp [NoText], Or.inl rfl,
        fun _ => ⟨.removed i, rfl, by simp, by simp, by simp⟩, by simp⟩
  | split nd =>
    simp only [loggedCall, plainCall, splitRingsLogged, splitRings, Meth.get_bind, methodName,
      LastLine]
    cases hds : divisions s nd with
    | error e =>
      simp only [Meth.lift_error_bind]
      exact ⟨by trivial, by trivial, [], by simp [NoText], Or.inl rfl, by simp, by simp⟩
    | ok ds =>
    simp only [Meth.lift_ok_bind]
    cases hl : splitLoop rnd s (s.rings.zip ds) with
    | error e =>
      simp only [Meth.bind_apply, changeRings_error, Meth.lift_apply]
      exact ⟨by trivial, by trivial, [], by simp [NoText], Or.inl rfl, by simp, by simp⟩
    | ok rs =>
      simp only [Meth.bind_apply, changeRings_ok, Meth.lift_apply, emit, Meth.modify_apply]
      refine ⟨by trivial, by trivial, [], by simp [NoText], Or.inl rfl,
        fun _ => ⟨.split ds.length ds.sum, ?_, by simp, by simp, by simp⟩, by simp⟩
      intro ds' hask
      have := asks_divisions hask
      rw [hds] at this
      cases this
      have hlen := (asks_pos hask).1
      rw [splitLoop_length rnd s _ rs hl, List.map_snd_zip (by omega), hlen]
  | merge tol =>
    simp only [loggedCall, plainCall, mergeRingsLogged, mergeRings, Meth.get_bind, methodName,
      LastLine]
    cases hr : s.rings with
    | nil =>
      simp only [Meth.lift_error_bind]
      exact ⟨by trivial, by trivial, [], by simp [NoText], Or.inl rfl, by simp, by simp⟩
    | cons r rs =>
      simp only [Meth.lift_ok_bind]
      cases mergeLoop rnd s tol r.inner r.inner r.transmission (r :: rs) with
      | error e =>
        simp only [Meth.bind_apply, changeRings_error, Meth.lift_apply]
        exact ⟨by trivial, by trivial, [], by simp [NoText], Or.inl rfl, by simp, by simp⟩
      | ok out =>
        simp only [Meth.bind_apply, changeRings_ok, Meth.lift_apply, emit, Meth.modify_apply,
          Meth.get_apply]
        exact ⟨by trivial, by trivial, [], by simp [NoText], Or.inl rfl,
          fun _ => ⟨_, rfl, by simp, by simp, by simp⟩, by simp⟩

theorem texts_append (l m : List (LogMsg K)) : texts (l ++ m) = texts l ++ texts m :=
  List.filterMap_append

theorem texts_noText {l : List (LogMsg K)} (h : NoText l) : texts l = [] := by
  rw [texts, List.filterMap_eq_nil_iff]
  intro m hm
  cases m with
  | changed a x y => exact absurd hm (h a x y)
  | _ => rfl

theorem linked_append {r0 r1 r2 : SysReport K} {l m : List (SysReport K × SysReport K)}
    (h1 : Linked r0 l r1) (h2 : Linked r1 m r2) : Linked r0 (l ++ m) r2 := by
  induction l generalizing r0 with
  | nil => obtain rfl : r0 = r1 := h1; exact h2
  | cons p l ih => exact ⟨h1.1, ih h1.2⟩

/-- One call adds one change to the texts, or none if it raised. -/
theorem loggedCall_texts (rnd : K → K) (st : LogState K) (op : SysOp K) :
    ∃ more, texts (loggedCall rnd st op).2.log = texts st.log ++ more ∧
      Linked st.sys.report more (loggedCall rnd st op).2.sys.report := by
  obtain ⟨h1, h2, ov, h3, -, h4, h5⟩ := loggedCall_spec rnd st op
  cases hr : (plainCall rnd st.sys op).1 with
  | ok u =>
    obtain ⟨last, -, h6, -, h7⟩ := h4 hr
    have hl : texts [last] = [] := texts_noText fun a x y h => h6 a x y (List.mem_singleton.1 h).symm
    refine ⟨[(st.sys.report, (plainCall rnd st.sys op).2.report)], ?_, ?_⟩
    · rw [h7, texts_append, texts_append, texts_noText h3, List.append_nil]
      congr 1
      change _ :: texts [last] = _
      rw [hl]
    · rw [h2]
      exact ⟨rfl, rfl⟩
  | error e =>
    obtain ⟨h6, h7, -⟩ := h5 e hr
    refine ⟨[], ?_, ?_⟩
    · rw [h7, texts_append, texts_noText h3]
    · rw [h2, h6]
      exact rfl

/-! ## C87: the log tells what happened -/

/-- **C87, the text** The text of a system has one line for each ring, in order, with the number of the
ring counted from 1 and its radii and transmission. -/
theorem C87_text (s : RSys K) : s.report.lines.length = s.rings.length ∧
    ∀ (k : ℕ) (r : RingObj K), s.rings[k]? = some r →
      s.report.lines[k]? = some ⟨k + 1, r.inner, r.outer, r.transmission⟩ := by
  have main : ∀ (n : ℕ) (l : List (RingObj K)),
      ringLines n (l.map (·.inner)) (l.map (·.outer)) (l.map (·.transmission)) =
        (l.zipIdx n).map fun p => ⟨p.2, p.1.inner, p.1.outer, p.1.transmission⟩ := by
    intro n l
    induction l generalizing n with
    | nil => rfl
    | cons r l ih => simp [ringLines, ih (n + 1)]
  have e : s.report.lines =
      (s.rings.zipIdx 1).map fun p => ⟨p.2, p.1.inner, p.1.outer, p.1.transmission⟩ := main 1 s.rings
  rw [e]
  refine ⟨by simp, fun k r hr => ?_⟩
  simp [List.getElem?_zipIdx, hr, add_comm]

/-- **C87, the log does not interfere** With the log, every call ends as without it and leaves the same
system. -/
theorem C87_transparent (rnd : K → K) (st : LogState K) (op : SysOp K) :
    (loggedCall rnd st op).1 = (plainCall rnd st.sys op).1 ∧
    (loggedCall rnd st op).2.sys = (plainCall rnd st.sys op).2 :=
  ⟨(loggedCall_spec rnd st op).1, (loggedCall_spec rnd st op).2.1⟩

/-- **C87, successful calls** A call that succeeds ends its messages with the texts of the system
before and after the call under the name of the method, and a line with the right index or the right
numbers of rings. -/
theorem C87_success (rnd : K → K) (st : LogState K) (op : SysOp K)
    (h : (loggedCall rnd st op).1 = .ok ()) :
    ∃ ov last, (loggedCall rnd st op).2.log = st.log ++ ov ++
        [.changed (methodName op) st.sys.report (loggedCall rnd st op).2.sys.report, last] ∧
      NoText ov ∧
      LastLine st.sys.rings.length (loggedCall rnd st op).2.sys.rings.length op last := by
  obtain ⟨h1, h2, ov, h3, -, h4, -⟩ := loggedCall_spec rnd st op
  obtain ⟨last, h5, -, -, h6⟩ := h4 (h1 ▸ h)
  exact ⟨ov, last, by rw [h2]; exact h6, h3, by rw [h2]; exact h5⟩

/-- **C87, failing calls (partial)** A call that raises changes neither the system nor the log, if the
angles of the system are in range.  Missing for the full claim: systems whose angles were assigned, for
which it is false (`C87_false_override`). -/
theorem C87_failure_partial (rnd : K → K) (st : LogState K) (op : SysOp K)
    (hg : GoodGeometry st.sys) (e : Err) (h : (loggedCall rnd st op).1 = .error e) :
    (loggedCall rnd st op).2.sys = st.sys ∧ (loggedCall rnd st op).2.log = st.log := by
  obtain ⟨h1, h2, ov, -, -, -, h5⟩ := loggedCall_spec rnd st op
  obtain ⟨h6, h7, h8⟩ := h5 e (h1 ▸ h)
  rw [h2, h7, h8 hg]
  exact ⟨h6, by simp⟩

/-- **C87, whole sessions** In the log of any sequence of calls, whether they raise or not, every text
`Before` is the text `After` of the change before; the first is that of the first system and the last
that of the system as it is. -/
theorem C87_session (rnd : K → K) (s : RSys K) (r : RingObj K) (ops : List (SysOp K)) :
    Linked s.report (texts (runLogged rnd ops ⟨s, r, []⟩).log)
      (runLogged rnd ops ⟨s, r, []⟩).sys.report := by
  have main : ∀ (ops : List (SysOp K)) (st : LogState K), Linked s.report (texts st.log) st.sys.report →
      Linked s.report (texts (runLogged rnd ops st).log) (runLogged rnd ops st).sys.report := by
    intro ops
    induction ops with
    | nil => exact fun st h => h
    | cons op ops ih =>
      intro st h
      obtain ⟨more, h1, h2⟩ := loggedCall_texts rnd st op
      exact ih _ (by rw [h1]; exact linked_append h h2)
  exact main ops ⟨s, r, []⟩ rfl

/-- An angle of a ring. -/
def Spec.ringAngle (r : RingObj K) : Angle → XF K
  | .inclination => r.inclination
  | .tilt => r.tilt

/-- An angle of a system. -/
def Spec.sysAngle (s : RSys K) : Angle → XF K
  | .inclination => s.inclination
  | .tilt => s.tilt

theorem mem_overrideMsgs {s : RSys K} (hs : GoodGeometry s) {r : RingObj K} (hr : ValidRing r)
    (w : Angle) (a b : XF K) : LogMsg.overridden w a b ∈ overrideMsgs s r ↔
      a = ringAngle r w ∧ b = sysAngle s w ∧ a ≠ b := by
  obtain ⟨i, p, hi, hp, -⟩ := hs
  obtain ⟨ra, rb, rt, ri, rp, rfl, -⟩ := hr
  unfold overrideMsgs
  cases w <;> simp only [hi, hp, XF.eqb_fin, decide_eq_true_eq, ringAngle, sysAngle,
    List.mem_append] <;> split_ifs <;> simp_all

/-- **C87, overridden angles** `add_ring` and `replace_ring` of a valid ring, if they succeed, report
an angle as overridden exactly if it was different; the caller's ring has the new angles. -/
theorem C87_override (rnd : K → K) (st : LogState K) (hg : GoodGeometry st.sys) (i : PyVal K)
    (r : RingObj K) (hr : ValidRing r) (op : SysOp K) (hop : op = .add i r ∨ op = .replace i r)
    (h : (loggedCall rnd st op).1 = .ok ()) :
    ∃ new, (loggedCall rnd st op).2.log = st.log ++ new ∧
      (∀ w a b, LogMsg.overridden w a b ∈ new ↔
        a = ringAngle r w ∧ b = sysAngle st.sys w ∧ a ≠ b) ∧
      (loggedCall rnd st op).2.ring = { r with inclination := st.sys.inclination, tilt := st.sys.tilt } := by
  obtain ⟨h1, h2, ov, -, -, h4, -⟩ := loggedCall_spec rnd st op
  obtain ⟨last, h5, -, h6, h7⟩ := h4 (h1 ▸ h)
  refine ⟨_, by rw [h7, List.append_assoc], fun w a b => ?_, ?_⟩
  · rw [h6 i r hop, ← mem_overrideMsgs hg hr w a b]
    have hl : LogMsg.overridden w a b ≠ last := by
      rcases hop with rfl | rfl <;> simp only [LastLine] at h5 <;> rw [h5] <;> simp
    simp [hl]
  · obtain ⟨s, r0, log⟩ := st
    rcases hop with rfl | rfl
    · simp only [loggedCall, addRingLogged, Meth.get_bind] at h ⊢
      cases hp : preventOverlap s i r false with
      | error e => rw [hp] at h; simp at h
      | ok u =>
        simp only [Meth.lift_ok_bind]
        simp only [Meth.bind_apply, overrideLogged, overrideCallersRing_good hg, Meth.get_apply,
          changeRings_ok, emit, Meth.modify_apply]
        rfl
    · simp only [loggedCall, replaceRingLogged, Meth.get_bind] at h ⊢
      cases hn : number i (.bool true) (.int 0) (.int ((s.rings.length : ℤ) - 1)) with
      | error e => rw [hn] at h; simp at h
      | ok v =>
      rw [hn] at h
      simp only [Meth.lift_ok_bind] at h ⊢
      cases hp : preventOverlap s i r true with
      | error e => rw [hp] at h; simp at h
      | ok u =>
        simp only [Meth.lift_ok_bind]
        simp only [Meth.bind_apply, overrideLogged, overrideCallersRing_good hg, Meth.get_apply,
          changeRings_ok, emit, Meth.modify_apply]
        rfl

end

/-- Non-vacuity of the C87 claims: adding a ring with other angles, a failing call, a split and a
merge. -/
example : let s : RSys ℚ := ⟨.fin 1, .fin 10, .fin 20, [⟨.fin 1, .fin 2, .fin 0, .fin 10, .fin 20⟩]⟩
    let st := runLogged id [.add (.int 1) ⟨.fin 2, .fin 3, .fin 1, .fin 10, .fin 0⟩, .remove (.int 7),
      .split (.int 2), .merge (.fin (1 / 10))] ⟨s, ⟨.fin 1, .fin 2, .fin 0, .fin 0, .fin 0⟩, []⟩
    st.log.length = 7 ∧ (texts st.log).length = 3 ∧ st.sys.rings.length = 2 := by
  decide +kernel

/-- **C87 is false for angles out of range** A system whose inclination was assigned 100: `add_ring`
raises `ValueError`, but the log says that the inclination of the ring was overridden, though the ring
still has its own. -/
theorem C87_false_override : ∃ (st : LogState ℚ) (r : RingObj ℚ),
    let out := loggedCall id st (.add (.int 0) r)
    out.1 = .error .valueError ∧ out.2.sys = st.sys ∧ out.2.ring.inclination = .fin 5 ∧
      (out.2.log.map fun m => match m with
        | .overridden .inclination a b => decide (a = .fin 5 ∧ b = .fin 100)
        | _ => false) = [true] := by
  refine ⟨⟨⟨.fin 1, .fin 100, .fin 20, []⟩, ⟨.fin 1, .fin 2, .fin 0, .fin 0, .fin 0⟩, []⟩,
    ⟨.fin 1, .fin 2, .fin 0, .fin 5, .fin 20⟩, ?_⟩
  decide +kernel

/-! ## C88: the loggers of several systems -/

section
variable {K N : Type} [Field K] [LinearOrder K] [IsStrictOrderedRing K] [DecidableEq N]

/-- The arguments of the constructor. -/
structure Spec.SysArgs (K : Type) where
  planet : PyVal K
  inner : PyVal K
  outer : PyVal K
  transmissions : PyVal K
  inclination : PyVal K
  tilt : PyVal K
  level : PyVal K

/-- A call of the constructor; the systems made so far are kept as the name of their logger and the
level that was asked for. -/
def construct (acc : List (N × ℤ) × LogWorld N) (a : SysArgs K) : List (N × ℤ) × LogWorld N :=
  match newSystemLogged a.planet a.inner a.outer a.transmissions a.inclination a.tilt a.level acc.2 with
  | (.ok (_, name), w) => (acc.1 ++ [(name, a.level.toInt)], w)
  | (.error _, w) => (acc.1, w)

/-- A process that makes ring systems. -/
def constructAll (calls : List (SysArgs K)) (w : LogWorld N) : List (N × ℤ) × LogWorld N :=
  calls.foldl construct ([], w)

/-- The levels asked for by the systems with a logger of this name. -/
def Spec.levelsOf (made : List (N × ℤ)) (name : N) : List ℤ :=
  (made.filter fun p => decide (p.1 = name)).map Prod.snd

/-- A process without loggers. -/
def Spec.NoLoggers (w : LogWorld N) : Prop := ∀ n, w.loggers n = none

theorem setLogger_ok (level v : PyVal K) (w : LogWorld N)
    (h : number level (.bool true) (.int 10) (.int 50) = .ok v) :
    setLogger level w = (.ok (w.draws w.drawn), { w with
      drawn := w.drawn + 1
      loggers := fun n => if n = w.draws w.drawn then some ⟨v.toInt, (match w.loggers (w.draws w.drawn) with
        | some l => l.handlers
        | none => []) ++ [v.toInt]⟩ else w.loggers n }) := by
  unfold setLogger
  rw [h]
  rfl

theorem setLogger_error (level : PyVal K) (w : LogWorld N) (e : Err)
    (h : number level (.bool true) (.int 10) (.int 50) = .error e) :
    setLogger level w = (.error e, w) := by
  unfold setLogger
  rw [h]
  rfl

/-- What holds after any calls: the loggers are those of the systems made. -/
structure Recorded (w0 : LogWorld N) (acc : List (N × ℤ) × LogWorld N) : Prop where
  draws : acc.2.draws = w0.draws
  drawn : acc.2.drawn = w0.drawn + acc.1.length
  names : ∀ i : ℕ, ∀ p, acc.1[i]? = some p → p.1 = w0.draws (w0.drawn + i)
  loggers : ∀ n, acc.2.loggers n = if levelsOf acc.1 n = [] then none
    else some ⟨(levelsOf acc.1 n).getLastD 0, levelsOf acc.1 n⟩

theorem number_value {v r l u : PyVal K} {c : Bool} (h : number v (.bool c) l u = .ok r) : r = v :=
  ((C01_number_ok_iff _ _ _ _ _ _).1 h).1

/-- A logger more. -/
theorem Recorded.set {w0 w : LogWorld N} {made : List (N × ℤ)} (h : Recorded w0 (made, w))
    {level v : PyVal K} (hn : number level (.bool true) (.int 10) (.int 50) = .ok v) :
    Recorded w0 (made ++ [(w.draws w.drawn, level.toInt)], (setLogger level w).2) := by
  obtain ⟨h1, h2, h3, h4⟩ := h
  simp only at h1 h2 h3 h4
  obtain rfl := number_value hn
  rw [setLogger_ok _ _ _ hn]
  have hname : w.draws w.drawn = w0.draws (w0.drawn + made.length) := by rw [h1, h2]
  refine ⟨h1, by simp only [h2, List.length_append, List.length_singleton]; omega, ?_, ?_⟩
  · intro i p hp
    simp only at hp
    rw [List.getElem?_append] at hp
    split_ifs at hp with hi
    · exact h3 i p hp
    · rw [List.getElem?_singleton] at hp
      split_ifs at hp with h0
      cases hp
      refine hname.trans (congrArg w0.draws ?_)
      have h0' : i - made.length = 0 := h0
      have hi' : ¬ i < made.length := hi
      omega
  · intro n
    simp only
    have hl : levelsOf (made ++ [(w.draws w.drawn, v.toInt)]) n =
        levelsOf made n ++ (if n = w.draws w.drawn then [v.toInt] else []) := by
      unfold levelsOf
      rw [List.filter_append, List.map_append]
      congr 1
      by_cases hc : n = w.draws w.drawn
      · simp [hc]
      · rw [if_neg hc]
        simp [Ne.symm hc]
    rw [hl]
    by_cases hc : n = w.draws w.drawn
    · subst hc
      rw [if_pos rfl, if_pos rfl, if_neg (by simp)]
      simp only [Option.some.injEq, Logger.mk.injEq]
      refine ⟨by simp, ?_⟩
      rw [h4]
      by_cases he : levelsOf made (w.draws w.drawn) = []
      · rw [if_pos he]; simp [he]
      · rw [if_neg he]
    · rw [if_neg hc, if_neg hc, List.append_nil]
      exact h4 n

theorem construct_recorded {w0 : LogWorld N} {acc : List (N × ℤ) × LogWorld N}
    (h : Recorded w0 acc) (a : SysArgs K) : Recorded w0 (construct acc a) := by
  obtain ⟨made, w⟩ := acc
  unfold construct newSystemLogged
  cases newSystem a.planet a.inner a.outer a.transmissions a.inclination a.tilt with
  | error e => exact h
  | ok s =>
  simp only [Meth.lift_ok_bind]
  cases hn : number a.level (.bool true) (.int 10) (.int 50) with
  | error e =>
    simp only [Meth.bind_apply, setLogger_error _ _ _ hn]
    exact h
  | ok v =>
    have hs := h.set hn
    rw [setLogger_ok _ _ _ hn] at hs
    simp only [Meth.bind_apply, setLogger_ok _ _ _ hn, Meth.lift_apply]
    exact hs

theorem constructAll_recorded (calls : List (SysArgs K)) (w : LogWorld N) (hw : NoLoggers w) :
    Recorded w (constructAll calls w) := by
  have main : ∀ (calls : List (SysArgs K)) (acc : List (N × ℤ) × LogWorld N), Recorded w acc →
      Recorded w (calls.foldl construct acc) := by
    intro calls
    induction calls with
    | nil => exact fun _ h => h
    | cons a calls ih => exact fun acc h => ih _ (construct_recorded h a)
  exact main calls _ ⟨rfl, by simp, by simp, fun n => by simp [hw n, levelsOf]⟩

/-- How often a message is written. -/
theorem Recorded.copies {w0 w : LogWorld N} {made : List (N × ℤ)} (h : Recorded w0 (made, w)) (name : N)
    (lv : ℤ) : Beyonce.copies w name lv = match (levelsOf made name).getLast? with
      | none => 0
      | some last => if lv < last then 0
        else ((levelsOf made name).filter fun l => decide (l ≤ lv)).length := by
  unfold Beyonce.copies
  rw [h.loggers name]
  simp only
  generalize levelsOf made name = l
  cases hl : l.getLast? with
  | none =>
    rw [List.getLast?_eq_none_iff] at hl
    simp [hl]
  | some last =>
    have hne : l ≠ [] := by rintro rfl; simp at hl
    rw [if_neg hne]
    simp [List.getLastD_eq_getLast?, hl]

/-- With a generator that never repeats a name, each logger was asked for once. -/
theorem Recorded.own {w0 w : LogWorld N} {made : List (N × ℤ)} (h : Recorded w0 (made, w))
    (hinj : Function.Injective w0.draws) {p : N × ℤ} (hp : p ∈ made) : levelsOf made p.1 = [p.2] := by
  have hn := h.names
  simp only at hn
  have hnd : (made.map Prod.fst).Nodup := by
    rw [List.nodup_iff_injective_getElem]
    rintro ⟨i, hi⟩ ⟨j, hj⟩ hij
    simp only [List.length_map] at hi hj
    simp only [List.getElem_map] at hij
    have h1 := hn i _ (List.getElem?_eq_getElem hi)
    have h2 := hn j _ (List.getElem?_eq_getElem hj)
    rw [h1, h2] at hij
    have := hinj hij
    simp only [Fin.mk.injEq]
    omega
  clear hn h
  induction made with
  | nil => cases hp
  | cons q l ih =>
    rw [List.map_cons, List.nodup_cons] at hnd
    unfold levelsOf
    rw [List.filter_cons]
    rcases List.mem_cons.1 hp with rfl | hp
    · have he : l.filter (fun q => decide (q.1 = p.1)) = [] := by
        rw [List.filter_eq_nil_iff]
        intro q hq hc
        exact hnd.1 (List.mem_map.2 ⟨q, hq, by simpa using hc⟩)
      simp [he]
    · have hne : q.1 ≠ p.1 := fun h => hnd.1 (h ▸ List.mem_map_of_mem hp)
      rw [if_neg (by simpa using hne)]
      exact ih hp hnd.2

/-- **C88, exactly** After any calls of the constructor, whether they raise or not, a message is
written through a logger not at all if its level is below that asked for by the last system with this
logger, and else once for every system with this logger that asked for no more than its level. -/
theorem C88_exact (calls : List (SysArgs K)) (w : LogWorld N) (hw : NoLoggers w) (name : N) (lv : ℤ) :
    copies (constructAll calls w).2 name lv =
      match (levelsOf (constructAll calls w).1 name).getLast? with
      | none => 0
      | some last => if lv < last then 0
        else ((levelsOf (constructAll calls w).1 name).filter fun l => decide (l ≤ lv)).length := (constructAll_recorded calls w hw).copies name lv

/-- **C88 (partial)** If the random generator never gives a name twice, every system has its own logger:
each of its messages is written once if its level is at least that asked for, and else not at all.
Missing for the full claim: generators that are seeded again, for which it is false
(`C88_false_twice`, `C88_false_silenced`). -/
theorem C88_own_partial (calls : List (SysArgs K)) (w : LogWorld N) (hw : NoLoggers w)
    (hinj : Function.Injective w.draws) (p : N × ℤ) (hp : p ∈ (constructAll calls w).1) (lv : ℤ) :
    copies (constructAll calls w).2 p.1 lv = if p.2 ≤ lv then 1 else 0 := by
  have hl : levelsOf (constructAll calls w).1 p.1 = [p.2] :=
    (constructAll_recorded calls w hw).own hinj hp
  rw [C88_exact calls w hw]
  rw [hl]
  by_cases h : p.2 ≤ lv
  · simp [h, not_lt.2 h]
  · simp [h, not_le.1 h]

/-- **C88, the arguments** The constructor succeeds exactly if it would without a logger and the level is
an integer from 10 to 50.  A call that raises draws no random number and leaves the loggers alone; a
call that succeeds draws one. -/
theorem C88_constructor (a : SysArgs K) (w : LogWorld N) :
    ((∃ s n, (newSystemLogged a.planet a.inner a.outer a.transmissions a.inclination a.tilt a.level w).1
        = .ok (s, n)) ↔
      (∃ s, newSystem a.planet a.inner a.outer a.transmissions a.inclination a.tilt = .ok s) ∧
      ∃ k : ℤ, IsInteger a.level k ∧ 10 ≤ k ∧ k ≤ 50) ∧
    (∀ s n, (newSystemLogged a.planet a.inner a.outer a.transmissions a.inclination a.tilt a.level w).1
        = .ok (s, n) →
      newSystem a.planet a.inner a.outer a.transmissions a.inclination a.tilt = .ok s ∧
      (newSystemLogged a.planet a.inner a.outer a.transmissions a.inclination a.tilt a.level w).2.drawn
        = w.drawn + 1) ∧
    (∀ e, (newSystemLogged a.planet a.inner a.outer a.transmissions a.inclination a.tilt a.level w).1
        = .error e →
      (newSystemLogged a.planet a.inner a.outer a.transmissions a.inclination a.tilt a.level w).2 = w) := by
  have hnum : (∃ v, number a.level (.bool true) (.int 10) (.int 50) = .ok v) ↔
      ∃ k : ℤ, IsInteger a.level k ∧ 10 ≤ k ∧ k ≤ 50 := by
    constructor
    · rintro ⟨v, hv⟩
      obtain ⟨-, x, _, _, hx, -⟩ := (C01_number_ok_iff _ _ _ _ _ _).1 hv
      rcases hx with ⟨k, hk, -⟩ | ⟨h', -⟩
      · rw [number_index hk] at hv
        split_ifs at hv with hc
        exact ⟨k, hk, hc.2⟩
      · cases h'
    · rintro ⟨k, hk, hc⟩
      exact ⟨_, by rw [number_index hk, if_pos ⟨by norm_num, hc⟩]⟩
  unfold newSystemLogged
  cases newSystem a.planet a.inner a.outer a.transmissions a.inclination a.tilt with
  | error e => simp
  | ok s =>
  simp only [Meth.lift_ok_bind]
  cases hn : number a.level (.bool true) (.int 10) (.int 50) with
  | error e =>
    rw [hn] at hnum
    simp only [Meth.bind_apply, setLogger_error _ _ _ hn]
    refine ⟨⟨by simp, fun h => ?_⟩, by simp, by simp⟩
    obtain ⟨v, hv⟩ := hnum.2 h.2
    cases hv
  | ok v =>
    rw [hn] at hnum
    simp only [Meth.bind_apply, setLogger_ok _ _ _ hn, Meth.lift_apply]
    refine ⟨⟨fun _ => ⟨⟨s, by trivial⟩, hnum.1 ⟨v, rfl⟩⟩, fun _ => ⟨s, w.draws w.drawn, by trivial⟩⟩, ?_, by simp⟩
    rintro s' n h
    simp only [Except.ok.injEq, Prod.mk.injEq] at h
    exact ⟨by rw [h.1], by trivial⟩

end

/-- Arguments of a system with one ring. -/
def someSystem (level : PyVal ℚ) : SysArgs ℚ :=
  ⟨.int 1, .arr ⟨"float64", [1], [.fin 1]⟩, .arr ⟨"float64", [1], [.fin 2]⟩,
    .arr ⟨"float64", [1], [.fin 0]⟩, .int 10, .int 20, level⟩

/-- Non-vacuity: three calls, the second of them with a level that raises. -/
example : NoLoggers (⟨fun n => n, 0, fun _ => none⟩ : LogWorld ℕ) ∧
    (constructAll [someSystem (.int 20), someSystem (.int 5), someSystem (.int 40)]
      (⟨fun n => n, 0, fun _ => none⟩ : LogWorld ℕ)).1 = [(0, 20), (1, 40)] :=
  ⟨fun _ => rfl, by decide +kernel⟩

/-- **C88 is false: messages twice** If the generator is seeded alike before both calls, the two systems
share a logger, and every message is written twice. -/
theorem C88_false_twice :
    (constructAll [someSystem (.int 20), someSystem (.int 20)]
      (⟨fun _ => 0, 0, fun _ => none⟩ : LogWorld ℕ)).1 = [(0, 20), (0, 20)] ∧
    copies (constructAll [someSystem (.int 20), someSystem (.int 20)]
      (⟨fun _ => 0, 0, fun _ => none⟩ : LogWorld ℕ)).2 0 20 = 2 := by
  decide +kernel

/-- **C88 is false: messages lost** and the second system decides for both: the first asked for messages
of level 20 and gets none. -/
theorem C88_false_silenced :
    (constructAll [someSystem (.int 20), someSystem (.int 40)]
      (⟨fun _ => 0, 0, fun _ => none⟩ : LogWorld ℕ)).1 = [(0, 20), (0, 40)] ∧
    copies (constructAll [someSystem (.int 20), someSystem (.int 40)]
      (⟨fun _ => 0, 0, fun _ => none⟩ : LogWorld ℕ)).2 0 20 = 0 := by
  decide +kernel

end Beyonce
