import Verif.GridLogger
import Verif.Props.RingLog
import Verif.Props.ShallotLoad

/-!
# Property C99: the loggers of grids

A session is any list of calls of the constructor and of `load`, with any arguments; calls may raise.  What a
logger was asked for is written down beside it, so that the number of times that a message is written can be
told from the calls alone.
-/

set_option linter.unusedSectionVars false

namespace Beyonce
open Spec

section
variable {K N : Type} [Field K] [LinearOrder K] [IsStrictOrderedRing K] [DecidableEq N] [RealFns K]
  [FloorRing K]

/-- A call that gives a grid. -/
inductive Spec.GridCall (K : Type)
  | make (level numFxfy keepDiagnostics saving : PyVal K) (g : GridParams K)
  | load (d : Path) (level : PyVal K)

/-- The call. -/
def Spec.GridCall.run : GridCall K → Meth (Process K N) (Shallot K × N)
  | .make level n k s g => Shallot.newLogged level n k s g
  | .load d level => Shallot.loadLogged d level

/-- The level that the caller asks for. -/
def Spec.GridCall.asked : GridCall K → PyVal K
  | .make level _ _ _ _ => level
  | .load _ level => level

/-- The levels of the loggers that a call sets, if it gets that far: `load` sets one of level `CRITICAL`
first. -/
def Spec.GridCall.levels : GridCall K → List ℤ
  | .make level _ _ _ _ => [level.toInt]
  | .load _ level => [50, level.toInt]

/-- What a session leaves: for each grid that was returned the name of its logger and the level that was
asked for; for each random number that was drawn the logger of that name and its level; the process. -/
structure Session (K N : Type) where
  grids : List (N × ℤ)
  requests : List (N × ℤ)
  process : Process K N

/-- The loggers that a call sets: one for each random number that it draws. -/
def Spec.requested (c : GridCall K) (before after : LogWorld N) : List (N × ℤ) :=
  List.zipWith (fun i l => (before.draws (before.drawn + i), l)) (List.range (after.drawn - before.drawn))
    c.levels

/-- One call. -/
def Session.step (s : Session K N) (c : GridCall K) : Session K N :=
  ⟨match (c.run s.process).1 with
    | .ok (_, name) => s.grids ++ [(name, c.asked.toInt)]
    | .error _ => s.grids,
   s.requests ++ requested c s.process.log (c.run s.process).2.log, (c.run s.process).2⟩

/-- A session. -/
def gridSession (calls : List (GridCall K)) (p : Process K N) : Session K N :=
  calls.foldl Session.step ⟨[], [], p⟩

theorem number_level (level : PyVal K) :
    (∃ k : ℤ, IsInteger level k ∧ 10 ≤ k ∧ k ≤ 50 ∧
      number level (.bool true) (.int 10) (.int 50) = .ok level ∧ level.toInt = k) ∨
    ((¬ ∃ k : ℤ, IsInteger level k ∧ 10 ≤ k ∧ k ≤ 50) ∧
      ∃ e, number level (.bool true) (.int 10) (.int 50) = .error e) := by
  cases hn : number level (.bool true) (.int 10) (.int 50) with
  | error e =>
    right
    refine ⟨?_, e, rfl⟩
    rintro ⟨k, hk, hc⟩
    rw [number_index hk, if_pos ⟨by norm_num, hc⟩] at hn
    cases hn
  | ok v =>
    left
    obtain rfl := number_value hn
    obtain ⟨-, x, _, _, hx, -⟩ := (C01_number_ok_iff _ _ _ _ _ _).1 hn
    rcases hx with ⟨k, hk, -⟩ | ⟨h', -⟩
    · rw [number_index hk] at hn
      split_ifs at hn with hc
      refine ⟨k, hk, hc.2.1, hc.2.2, rfl, ?_⟩
      cases hk <;> rfl
    · cases h'

/-- What the constructor does to the process. -/
theorem newLogged_cases (level n k s : PyVal K) (g : GridParams K) (p : Process K N) :
    (∃ e, number level (.bool true) (.int 10) (.int 50) = .error e ∧
      Shallot.newLogged level n k s g p = (.error e, p)) ∨
    (∃ v, number level (.bool true) (.int 10) (.int 50) = .ok v ∧
      Shallot.newLogged level n k s g p =
        ((Shallot.newIn n k s g p.fs).1.map fun s => (s, p.log.draws p.log.drawn),
          ⟨(setLogger level p.log).2, (Shallot.newIn n k s g p.fs).2⟩)) := by
  unfold Shallot.newLogged
  cases hn : number level (.bool true) (.int 10) (.int 50) with
  | error e =>
    left
    refine ⟨e, rfl, ?_⟩
    rw [setLogger_error _ _ _ hn]
  | ok v =>
    right
    refine ⟨v, rfl, ?_⟩
    rw [setLogger_ok _ _ _ hn]
    simp only
    rcases Shallot.newIn n k s g p.fs with ⟨e | t, fs⟩ <;> rfl

/-- What the end of `load` does to the process. -/
theorem resumeLogged_cases (d : Path) (level : PyVal K) (s : Shallot K) (p : Process K N) :
    (∃ e, number level (.bool true) (.int 10) (.int 50) = .error e ∧
      Shallot.resumeLogged d level s p = (.error e, p)) ∨
    (∃ v, number level (.bool true) (.int 10) (.int 50) = .ok v ∧
      Shallot.resumeLogged d level s p =
        ((Shallot.resume d (Shallot.helpers s) p.fs).1.map fun s => (s, p.log.draws p.log.drawn),
          ⟨(setLogger level p.log).2, (Shallot.resume d (Shallot.helpers s) p.fs).2⟩)) := by
  unfold Shallot.resumeLogged
  cases hn : number level (.bool true) (.int 10) (.int 50) with
  | error e =>
    left
    refine ⟨e, rfl, ?_⟩
    rw [setLogger_error _ _ _ hn]
  | ok v =>
    right
    refine ⟨v, rfl, ?_⟩
    rw [setLogger_ok _ _ _ hn]
    simp only
    rcases Shallot.resume d (Shallot.helpers s) p.fs with ⟨e | t, fs⟩ <;> rfl

theorem setLogger_drawn {level v : PyVal K} (w : LogWorld N)
    (h : number level (.bool true) (.int 10) (.int 50) = .ok v) :
    (setLogger level w).2.drawn = w.drawn + 1 ∧ (setLogger level w).2.draws = w.draws := by
  rw [setLogger_ok _ _ _ h]
  exact ⟨rfl, rfl⟩

theorem number_fifty : number (.int 50 : PyVal K) (.bool true) (.int 10) (.int 50) = .ok (.int 50) := by
  rw [number_index (.int 50), if_pos ⟨by norm_num, by norm_num, by norm_num⟩]

/-- What `load` does to the loggers: it raises early with one logger set, or it sets two. -/
theorem loadLogged_cases (d : Path) (level : PyVal K) (p : Process K N) :
    (∃ e, Shallot.loadLogged d level p = (.error e, p)) ∨
    (∃ e fs, Shallot.loadLogged d level p = (.error e, ⟨(setLogger (.int 50 : PyVal K) p.log).2, fs⟩)) ∨
    (∃ (v : PyVal K) (r : Except Err (Shallot K)) (fs : FS K), number level (.bool true) (.int 10) (.int 50) = .ok v ∧
      Shallot.loadLogged d level p = (r.map fun s => (s, p.log.draws (p.log.drawn + 1)),
        ⟨(setLogger level (setLogger (.int 50 : PyVal K) p.log).2).2, fs⟩)) := by
  unfold Shallot.loadLogged
  cases GridParams.new (K := K) (.int 0) (.int 1) (.int 2) (.int 0) (.int 1) (.int 2) (.int 2) (.int 2) with
  | error e => exact Or.inl ⟨e, rfl⟩
  | ok g =>
  right
  simp only
  have hd := setLogger_drawn (K := K) p.log number_fifty
  rcases newLogged_cases (.int 50) (.int 100) (.bool false) (.bool false) g p with ⟨e, h, -⟩ | ⟨v, -, h⟩
  · rw [number_fifty] at h; cases h
  · rw [h]
    rcases hb : Shallot.newIn (.int 100) (.bool false) (.bool false) g p.fs with ⟨e | t, fs⟩
    · exact Or.inl ⟨e, fs, rfl⟩
    · show _ ∨ _
      simp only [Except.map]
      cases Shallot.loadAttributes fs d t with
      | error e => exact Or.inl ⟨e, fs, rfl⟩
      | ok s =>
        simp only
        rcases resumeLogged_cases d level s
          (⟨(setLogger (.int 50 : PyVal K) p.log).2, fs⟩ : Process K N) with ⟨e, -, h⟩ | ⟨v, hv, h⟩
        · exact Or.inl ⟨e, fs, h⟩
        · right
          refine ⟨v, (Shallot.resume d (Shallot.helpers s) fs).1, (Shallot.resume d (Shallot.helpers s) fs).2,
            hv, ?_⟩
          rw [h]
          simp only [hd.1, hd.2]
          rfl

/-- The loggers after a call are those before and those that it requested. -/
theorem run_recorded (c : GridCall K) (p : Process K N) {w0 : LogWorld N} {made : List (N × ℤ)}
    (h : Recorded w0 (made, p.log)) :
    Recorded w0 (made ++ requested c p.log (c.run p).2.log, (c.run p).2.log) ∧
    ∀ s n, (c.run p).1 = .ok (s, n) → (n, c.asked.toInt) ∈ requested c p.log (c.run p).2.log := by
  have none : ∀ c : GridCall K, requested c p.log p.log = [] := fun c => by simp [requested]
  cases c with
  | make level n k s g =>
    rcases newLogged_cases level n k s g p with ⟨e, -, hr⟩ | ⟨v, hv, hr⟩
    all_goals
      rw [show GridCall.run (.make level n k s g) p = _ from hr]
    · rw [none, List.append_nil]
      exact ⟨h, fun _ _ h' => by cases h'⟩
    · have hd := setLogger_drawn p.log hv
      have hq : requested (.make level n k s g) p.log (setLogger level p.log).2 =
          [(p.log.draws p.log.drawn, level.toInt)] := by
        simp [requested, hd.1, GridCall.levels]
      simp only [hq]
      refine ⟨h.set hv, fun s' n' h' => ?_⟩
      revert h'
      cases (Shallot.newIn n k s g p.fs).1 with
      | error e => exact fun h' => by cases h'
      | ok t =>
        intro h'
        simp only [Except.map, Except.ok.injEq, Prod.mk.injEq] at h'
        rw [← h'.2]
        exact List.mem_singleton.2 rfl
  | load d level =>
    rcases loadLogged_cases d level p with ⟨e, hr⟩ | ⟨e, fs, hr⟩ | ⟨v, r, fs, hv, hr⟩
    all_goals
      rw [show GridCall.run (.load d level) p = _ from hr]
    · rw [none, List.append_nil]
      exact ⟨h, fun _ _ h' => by cases h'⟩
    · have hd := setLogger_drawn (K := K) p.log number_fifty
      have hq : requested (.load d level) p.log (setLogger (.int 50 : PyVal K) p.log).2 =
          [(p.log.draws p.log.drawn, 50)] := by
        simp [requested, hd.1, GridCall.levels]
      simp only [hq]
      exact ⟨h.set (number_fifty (K := K)), fun _ _ h' => by cases h'⟩
    · have hd := setLogger_drawn (K := K) p.log number_fifty
      have hd' := setLogger_drawn (setLogger (.int 50 : PyVal K) p.log).2 hv
      have hq : requested (.load d level) p.log (setLogger level (setLogger (.int 50 : PyVal K) p.log).2).2 =
          [(p.log.draws p.log.drawn, 50)] ++ [(p.log.draws (p.log.drawn + 1), level.toInt)] := by
        have : p.log.drawn + 1 + 1 - p.log.drawn = 2 := by omega
        simp [requested, hd'.1, hd.1, this, GridCall.levels, List.range_succ]
      simp only [hq]
      refine ⟨?_, fun s' n' h' => ?_⟩
      · have h2 := (h.set (number_fifty (K := K))).set hv
        rw [hd.1, hd.2, List.append_assoc] at h2
        exact h2
      · cases r with
        | error e => cases h'
        | ok t =>
          simp only [Except.map, Except.ok.injEq, Prod.mk.injEq] at h'
          rw [← h'.2]
          simp [GridCall.asked]

theorem session_recorded (calls : List (GridCall K)) (p : Process K N) (hp : NoLoggers p.log) :
    Recorded p.log ((gridSession calls p).requests, (gridSession calls p).process.log) ∧
    ∀ q ∈ (gridSession calls p).grids, q ∈ (gridSession calls p).requests := by
  have main : ∀ (calls : List (GridCall K)) (s : Session K N), Recorded p.log (s.requests, s.process.log) →
      (∀ q ∈ s.grids, q ∈ s.requests) →
      Recorded p.log ((calls.foldl Session.step s).requests, (calls.foldl Session.step s).process.log) ∧
      ∀ q ∈ (calls.foldl Session.step s).grids, q ∈ (calls.foldl Session.step s).requests := by
    intro calls
    induction calls with
    | nil => exact fun _ h1 h2 => ⟨h1, h2⟩
    | cons c calls ih =>
      intro s h1 h2
      obtain ⟨h3, h4⟩ := run_recorded c s.process h1
      refine ih (s.step c) h3 fun q hq => ?_
      unfold Session.step at hq ⊢
      simp only at hq ⊢
      rw [List.mem_append]
      cases hr : (c.run s.process).1 with
      | error e => rw [hr] at hq; exact Or.inl (h2 q hq)
      | ok a =>
        obtain ⟨t, n⟩ := a
        rw [hr] at hq
        simp only [List.mem_append, List.mem_singleton] at hq
        rcases hq with hq | rfl
        · exact Or.inl (h2 q hq)
        · exact Or.inr (h4 t n hr)
  exact main calls _ ⟨rfl, by simp, by simp, fun n => by simp [hp n, levelsOf]⟩ (by simp)

/-- **C99, exactly** After any calls of the constructor and of `load`, whether they raise or not, a message
is written through a logger not at all if its level is below the last one that was asked of this logger, and
else once for every time that the logger was asked for with no more than its level. -/
theorem C99_exact (calls : List (GridCall K)) (p : Process K N) (hp : NoLoggers p.log) (name : N) (lv : ℤ) :
    copies (gridSession calls p).process.log name lv =
      match (levelsOf (gridSession calls p).requests name).getLast? with
      | none => 0
      | some last => if lv < last then 0
        else ((levelsOf (gridSession calls p).requests name).filter fun l => decide (l ≤ lv)).length :=
  (session_recorded calls p hp).1.copies name lv

/-- **C99 (partial)** If the random generator never gives a name twice, every grid has its own logger: each
of its messages is written once if its level is at least that asked for, and else not at all, whatever
other grids are made or loaded.  Missing for the full claim: generators that are seeded again, for which it
is false (`C99_false_silenced`, `C99_false_twice`). -/
theorem C99_own_partial (calls : List (GridCall K)) (p : Process K N) (hp : NoLoggers p.log)
    (hinj : Function.Injective p.log.draws) (q : N × ℤ) (hq : q ∈ (gridSession calls p).grids) (lv : ℤ) :
    copies (gridSession calls p).process.log q.1 lv = if q.2 ≤ lv then 1 else 0 := by
  obtain ⟨h1, h2⟩ := session_recorded calls p hp
  have hl := h1.own hinj (h2 q hq)
  rw [C99_exact calls p hp, hl]
  by_cases h : q.2 ≤ lv
  · simp [h, not_lt.2 h]
  · simp [h, not_le.1 h]

/-- **C99, the constructor** With a level that is no integer from 10 to 50 it raises and nothing happens.
Else it succeeds or raises, and changes the files, as it would without a logger; but a random number is drawn
and a logger set even if it raises. -/
theorem C99_constructor (level n k s : PyVal K) (g : GridParams K) (p : Process K N) :
    ((¬ ∃ i : ℤ, IsInteger level i ∧ 10 ≤ i ∧ i ≤ 50) →
      ∃ e, Shallot.newLogged level n k s g p = (.error e, p)) ∧
    (∀ i : ℤ, IsInteger level i → 10 ≤ i → i ≤ 50 →
      (Shallot.newLogged level n k s g p).1 =
        ((Shallot.newIn n k s g p.fs).1.map fun s => (s, p.log.draws p.log.drawn)) ∧
      (Shallot.newLogged level n k s g p).2.fs = (Shallot.newIn n k s g p.fs).2 ∧
      (Shallot.newLogged level n k s g p).2.log.drawn = p.log.drawn + 1 ∧
      ((Shallot.newLogged level n k s g p).2.log.loggers (p.log.draws p.log.drawn)).map Logger.level
        = some i) := by
  refine ⟨fun h => ?_, fun i hi h1 h2 => ?_⟩
  · rcases number_level level with ⟨i, hi, h1, h2, -⟩ | ⟨-, e, he⟩
    · exact absurd ⟨i, hi, h1, h2⟩ h
    · rcases newLogged_cases level n k s g p with ⟨e, -, hr⟩ | ⟨v, hv, hr⟩
      · exact ⟨e, hr⟩
      · rw [he] at hv; cases hv
  · have hn : number level (.bool true) (.int 10) (.int 50) = .ok level := by
      rw [number_index hi, if_pos ⟨by norm_num, h1, h2⟩]
    have ht : level.toInt = i := by cases hi <;> rfl
    rcases newLogged_cases level n k s g p with ⟨e, he, -⟩ | ⟨v, -, hr⟩
    · rw [hn] at he; cases he
    · rw [hr]
      refine ⟨rfl, rfl, (setLogger_drawn p.log hn).1, ?_⟩
      rw [setLogger_ok _ _ _ hn]
      simp [ht]

/-- **C99, loading** With a level from 10 to 50, `load` gives what it gives without loggers. -/
theorem C99_load (d : Path) (level : PyVal K) (i : ℤ) (hi : IsInteger level i) (h1 : 10 ≤ i) (h2 : i ≤ 50)
    (p : Process K N) :
    (Shallot.loadLogged d level p).1.map Prod.fst = (Shallot.load d p.fs).1 ∧
    (Shallot.loadLogged d level p).2.fs = (Shallot.load d p.fs).2 ∧
    ∀ s n, (Shallot.loadLogged d level p).1 = .ok (s, n) →
      (Shallot.loadLogged d level p).2.log.drawn = p.log.drawn + 2 ∧ n = p.log.draws (p.log.drawn + 1) := by
  have hn : number level (.bool true) (.int 10) (.int 50) = .ok level := by
    rw [number_index hi, if_pos ⟨by norm_num, h1, h2⟩]
  have hd := setLogger_drawn (K := K) p.log number_fifty
  have hd' := setLogger_drawn (setLogger (.int 50 : PyVal K) p.log).2 hn
  unfold Shallot.loadLogged Shallot.load
  cases GridParams.new (K := K) (.int 0) (.int 1) (.int 2) (.int 0) (.int 1) (.int 2) (.int 2) (.int 2) with
  | error e => exact ⟨rfl, rfl, fun _ _ h => by cases h⟩
  | ok g =>
  simp only
  rcases newLogged_cases (.int 50) (.int 100) (.bool false) (.bool false) g p with ⟨e, h, -⟩ | ⟨v, -, h⟩
  · rw [number_fifty] at h; cases h
  rw [h]
  rcases hb : Shallot.newIn (.int 100) (.bool false) (.bool false) g p.fs with ⟨e | t, fs⟩
  · exact ⟨rfl, rfl, fun _ _ h => by cases h⟩
  simp only [Except.map]
  cases Shallot.loadAttributes fs d t with
  | error e => exact ⟨rfl, rfl, fun _ _ h => by cases h⟩
  | ok s =>
  simp only
  rcases resumeLogged_cases d level s (⟨(setLogger (.int 50 : PyVal K) p.log).2, fs⟩ : Process K N) with
    ⟨e, he, -⟩ | ⟨v, -, hr⟩
  · rw [hn] at he; cases he
  rw [hr]
  simp only
  rcases Shallot.resume d (Shallot.helpers s) fs with ⟨e | u, fs'⟩
  · exact ⟨rfl, trivial, fun _ _ h => by cases h⟩
  · refine ⟨rfl, trivial, fun s' n' h' => ?_⟩
    simp only [Except.map, Except.ok.injEq, Prod.mk.injEq] at h'
    refine ⟨by rw [hd'.1, hd.1], ?_⟩
    rw [← h'.2, hd.1, hd.2]

/-- A call of `load` leaves a logger of level 50. -/
theorem silenced (d : Path) (level : PyVal K) (p : Process K N) (lv : ℤ) (hlv : lv < 50)
    (hne : p.log.draws (p.log.drawn + 1) ≠ p.log.draws p.log.drawn)
    (hg : ∃ g, GridParams.new (K := K) (.int 0) (.int 1) (.int 2) (.int 0) (.int 1) (.int 2) (.int 2) (.int 2)
      = .ok g) :
    copies (Shallot.loadLogged d level p).2.log (p.log.draws p.log.drawn) lv = 0 := by
  obtain ⟨g, hg⟩ := hg
  have hd := setLogger_drawn (K := K) p.log number_fifty
  have h50 : ∀ w : LogWorld N, (∃ hs, w.loggers (p.log.draws p.log.drawn) = some ⟨50, hs⟩) →
      copies w (p.log.draws p.log.drawn) lv = 0 := by
    rintro w ⟨hs, h⟩
    unfold copies
    rw [h]
    simp [hlv]
  have h1 : ∃ hs, (setLogger (.int 50 : PyVal K) p.log).2.loggers (p.log.draws p.log.drawn) = some ⟨50, hs⟩ := by
    rw [setLogger_ok _ _ _ number_fifty]
    simp [PyVal.toInt]
  rcases loadLogged_cases d level p with ⟨e, hr⟩ | ⟨e, fs, hr⟩ | ⟨v, r, fs, hv, hr⟩
  · exfalso
    unfold Shallot.loadLogged at hr
    rw [hg] at hr
    simp only at hr
    rcases newLogged_cases (.int 50) (.int 100) (.bool false) (.bool false) g p with ⟨e, h, -⟩ | ⟨v, -, h⟩
    · rw [number_fifty] at h; cases h
    rw [h] at hr
    have hne' : ∀ (r : Except Err (Shallot K × N)) (q : Process K N), (r, q).2.log.drawn = p.log.drawn + 1 ∨
        (r, q).2.log.drawn = p.log.drawn + 2 → (r, q) ≠ (.error e, p) := by
      rintro r q h0 h1
      rw [h1] at h0
      rcases h0 with h0 | h0 <;> simp at h0
    rcases hb : Shallot.newIn (.int 100) (.bool false) (.bool false) g p.fs with ⟨e' | t, fs⟩
    · rw [hb] at hr
      exact hne' _ _ (Or.inl hd.1) hr
    · rw [hb] at hr
      simp only [Except.map] at hr
      cases ha : Shallot.loadAttributes fs d t with
      | error e' =>
        rw [ha] at hr
        exact hne' _ _ (Or.inl hd.1) hr
      | ok s =>
        rw [ha] at hr
        simp only at hr
        rcases resumeLogged_cases d level s
          (⟨(setLogger (.int 50 : PyVal K) p.log).2, fs⟩ : Process K N) with ⟨e', -, h'⟩ | ⟨v, hv, h'⟩
        all_goals rw [h'] at hr
        · exact hne' _ _ (Or.inl hd.1) hr
        · refine hne' _ _ (Or.inr ?_) hr
          show (setLogger level _).2.drawn = _
          rw [(setLogger_drawn _ hv).1, hd.1]
  · rw [hr]
    exact h50 _ h1
  · rw [hr]
    refine h50 _ ?_
    show ∃ hs, (setLogger level (setLogger (.int 50 : PyVal K) p.log).2).2.loggers _ = _
    rw [setLogger_ok _ _ _ hv]
    simp only
    rw [if_neg (by rw [hd.1, hd.2]; exact hne.symm)]
    exact h1

end

/-! ## The small grid of `load` -/

section
variable {N : Type} [DecidableEq N]

/-- The constructor makes the small grid that `load` uses. -/
theorem newIn_throwAway : ∃ t, ∀ fs : FS ℝ,
    Shallot.newIn (.int 100) (.bool false) (.bool false) throwAway fs = (.ok t, cleaned fs) := by
  obtain ⟨t, dg, h1, -, -⟩ := (C72_new _ _ _ _ _ _ _ _ throwAway throwAway_new
    (fun _ => ⟨le_rfl, le_rfl⟩) (.int 100) (.bool false) 100 count_hundred false rfl).1
    (fun y x hy hx => throwAway_buildable y x (by rwa [throwAway_length.2.1] at hy)
      (by rwa [throwAway_length.1] at hx))
  exact ⟨t, fun fs => (newIn_plain _ _ _ fs).1 t _ h1⟩

/-- **C99, a wrong level** `load` checks the level after it has read the grid: with a level that is no integer
from 10 to 50 it raises, but has drawn a random number, has left a logger of level 50 and has removed the
temporary directory. -/
theorem C99_load_level (d : Path) (level : PyVal ℝ) (h : ¬ ∃ i : ℤ, IsInteger level i ∧ 10 ≤ i ∧ i ≤ 50)
    (p : Process ℝ N) :
    ∃ e, (Shallot.loadLogged d level p).1 = .error e ∧
      (Shallot.loadLogged d level p).2.fs = cleaned p.fs ∧
      (Shallot.loadLogged d level p).2.log.drawn = p.log.drawn + 1 ∧
      ((Shallot.loadLogged d level p).2.log.loggers (p.log.draws p.log.drawn)).map Logger.level = some 50 := by
  obtain ⟨t, ht⟩ := newIn_throwAway
  have he : ∃ e, number level (.bool true) (.int 10) (.int 50) = .error e := by
    rcases number_level level with ⟨i, hi, h1, h2, -⟩ | ⟨-, e, he⟩
    · exact absurd ⟨i, hi, h1, h2⟩ h
    · exact ⟨e, he⟩
  obtain ⟨e, he⟩ := he
  have hd := setLogger_drawn (K := ℝ) p.log number_fifty
  have h50 : ((setLogger (.int 50 : PyVal ℝ) p.log).2.loggers (p.log.draws p.log.drawn)).map Logger.level
      = some 50 := by
    rw [setLogger_ok _ _ _ number_fifty]
    simp [PyVal.toInt]
  unfold Shallot.loadLogged
  rw [new_tiny]
  simp only
  rcases newLogged_cases (.int 50) (.int 100) (.bool false) (.bool false) throwAway p with ⟨e, h, -⟩ | ⟨v, -, h⟩
  · rw [number_fifty] at h; cases h
  rw [h, ht]
  simp only [Except.map]
  cases Shallot.loadAttributes (cleaned p.fs) d t with
  | error e => exact ⟨e, rfl, rfl, hd.1, h50⟩
  | ok s =>
    simp only
    rcases resumeLogged_cases d level s
      (⟨(setLogger (.int 50 : PyVal ℝ) p.log).2, cleaned p.fs⟩ : Process ℝ N) with ⟨e', -, hr⟩ | ⟨v, hv, -⟩
    · rw [hr]
      exact ⟨e', rfl, rfl, hd.1, h50⟩
    · rw [he] at hv; cases hv

/-- **C99 is false of the code** A call of `load`, with any arguments and whether it raises or not, silences
below level 50 every grid whose logger has the number that is drawn next. -/
theorem C99_false_silenced (d : Path) (level : PyVal ℝ) (p : Process ℝ N)
    (hne : p.log.draws (p.log.drawn + 1) ≠ p.log.draws p.log.drawn) (lv : ℤ) (hlv : lv < 50) :
    copies (Shallot.loadLogged d level p).2.log (p.log.draws p.log.drawn) lv = 0 :=
  silenced d level p lv hlv hne ⟨_, new_tiny⟩

end

/-- **C99 is false of the code** The full claim, for a generator that is seeded again: a grid is made that logs
everything, and a call of `load` that finds no grid silences it. -/
theorem C99_false : ¬ ∀ (calls : List (GridCall ℝ)) (p : Process ℝ ℕ), NoLoggers p.log →
    ∀ q ∈ (gridSession calls p).grids, ∀ lv,
      copies (gridSession calls p).process.log q.1 lv = if q.2 ≤ lv then 1 else 0 := by
  intro h
  obtain ⟨t, ht⟩ := newIn_throwAway
  let p : Process ℝ ℕ := ⟨⟨fun i => if i < 2 then 5 else 7, 0, fun _ => none⟩, []⟩
  have hm : Shallot.newLogged (.int 10) (.int 100) (.bool false) (.bool false) throwAway p =
      (.ok (t, 5), ⟨(setLogger (.int 10 : PyVal ℝ) p.log).2, cleaned p.fs⟩) := by
    rcases newLogged_cases (.int 10) (.int 100) (.bool false) (.bool false) throwAway p with
      ⟨e, he, -⟩ | ⟨v, -, hr⟩
    · rw [number_index (.int 10), if_pos ⟨by norm_num, by norm_num, by norm_num⟩] at he; cases he
    · rw [hr, ht]; rfl
  have hd : (setLogger (.int 10 : PyVal ℝ) p.log).2.drawn = 1 ∧
      (setLogger (.int 10 : PyVal ℝ) p.log).2.draws = p.log.draws :=
    setLogger_drawn (v := .int 10) p.log
      (by rw [number_index (.int 10), if_pos ⟨by norm_num, by norm_num, by norm_num⟩])
  have h1 := h [.make (.int 10) (.int 100) (.bool false) (.bool false) throwAway, .load [] (.int 10)] p
    (fun _ => rfl) (5, 10) (by
      have h1 : (5, 10) ∈ (Session.step ⟨[], [], p⟩
          (.make (.int 10) (.int 100) (.bool false) (.bool false) throwAway)).grids := by
        simp [Session.step, GridCall.run, hm, GridCall.asked, PyVal.toInt]
      simp only [gridSession, List.foldl]
      generalize (Session.step ⟨[], [], p⟩
          (.make (.int 10) (.int 100) (.bool false) (.bool false) throwAway)) = s at h1
      unfold Session.step
      simp only
      split
      · exact List.mem_append_left _ h1
      · exact h1) 20
  have h2 : (gridSession [.make (.int 10) (.int 100) (.bool false) (.bool false) throwAway,
      .load [] (.int 10)] p).process =
      (Shallot.loadLogged [] (.int 10) ⟨(setLogger (.int 10 : PyVal ℝ) p.log).2, cleaned p.fs⟩).2 := by
    simp [gridSession, Session.step, GridCall.run, hm]
  rw [h2] at h1
  have h3 := C99_false_silenced [] (.int 10)
    (⟨(setLogger (.int 10 : PyVal ℝ) p.log).2, cleaned p.fs⟩ : Process ℝ ℕ)
    (by rw [hd.1, hd.2]; decide) 20 (by norm_num)
  rw [hd.1, hd.2] at h3
  rw [show p.log.draws 1 = 5 from rfl] at h3
  rw [h3] at h1
  norm_num at h1

/-- **C99 is false of the code** If the generator is seeded again before a second grid is made with the same
level, every message of the first is written twice. -/
theorem C99_false_twice : ∃ (t : Shallot ℝ) (p : Process ℝ ℕ), NoLoggers p.log ∧
    ∃ q, Shallot.newLogged (.int 10) (.int 100) (.bool false) (.bool false) throwAway p = (.ok (t, 5), q) ∧
      copies q.log 5 20 = 1 ∧
      ∃ r, Shallot.newLogged (.int 10) (.int 100) (.bool false) (.bool false) throwAway q = (.ok (t, 5), r) ∧
        copies r.log 5 20 = 2 := by
  obtain ⟨t, ht⟩ := newIn_throwAway
  have hn : number (.int 10 : PyVal ℝ) (.bool true) (.int 10) (.int 50) = .ok (.int 10) := by
    rw [number_index (.int 10), if_pos ⟨by norm_num, by norm_num, by norm_num⟩]
  have hm : ∀ p : Process ℝ ℕ, Shallot.newLogged (.int 10) (.int 100) (.bool false) (.bool false) throwAway p =
      (.ok (t, p.log.draws p.log.drawn), ⟨(setLogger (.int 10 : PyVal ℝ) p.log).2, cleaned p.fs⟩) := by
    intro p
    rcases newLogged_cases (.int 10) (.int 100) (.bool false) (.bool false) throwAway p with
      ⟨e, he, -⟩ | ⟨v, -, hr⟩
    · rw [hn] at he; cases he
    · rw [hr, ht]; rfl
  refine ⟨t, ⟨⟨fun _ => 5, 0, fun _ => none⟩, []⟩, fun _ => rfl, _, hm _, ?_, ?_⟩
  · rw [setLogger_ok _ _ _ hn]
    simp [copies, PyVal.toInt]
  refine ⟨_, (hm _).trans (by rw [(setLogger_drawn _ hn).2]), ?_⟩
  · simp only [setLogger_ok _ _ _ hn]
    simp [copies, PyVal.toInt]

/-- Loggers whose numbers are never given twice: two grids of other levels. -/
example : ∃ s : Session ℝ ℕ,
    s = gridSession [.make (.int 10) (.int 100) (.bool false) (.bool false) throwAway,
      .make (.int 30) (.int 100) (.bool false) (.bool false) throwAway]
      ⟨⟨id, 0, fun _ => none⟩, []⟩ ∧
    s.grids = [(0, 10), (1, 30)] ∧
    copies s.process.log 0 20 = 1 ∧ copies s.process.log 1 20 = 0 ∧ copies s.process.log 1 30 = 1 := by
  obtain ⟨t, ht⟩ := newIn_throwAway
  have hm : ∀ (l : ℤ) (p : Process ℝ ℕ), 10 ≤ l → l ≤ 50 →
      Shallot.newLogged (.int l) (.int 100) (.bool false) (.bool false) throwAway p =
      (.ok (t, p.log.draws p.log.drawn), ⟨(setLogger (.int l : PyVal ℝ) p.log).2, cleaned p.fs⟩) := by
    intro l p h1 h2
    rcases newLogged_cases (.int l) (.int 100) (.bool false) (.bool false) throwAway p with
      ⟨e, he, -⟩ | ⟨v, -, hr⟩
    · rw [number_index (.int l), if_pos ⟨by norm_num, h1, h2⟩] at he; cases he
    · rw [hr, ht]; rfl
  have hd : ∀ (l : ℤ) (w : LogWorld ℕ), 10 ≤ l → l ≤ 50 → (setLogger (.int l : PyVal ℝ) w).2.drawn = w.drawn + 1 ∧
      (setLogger (.int l : PyVal ℝ) w).2.draws = w.draws := fun l w h1 h2 =>
    setLogger_drawn (v := .int l) w (by rw [number_index (.int l), if_pos ⟨by norm_num, h1, h2⟩])
  have hg : (gridSession [.make (.int 10) (.int 100) (.bool false) (.bool false) throwAway,
      .make (.int 30) (.int 100) (.bool false) (.bool false) throwAway]
      (⟨⟨id, 0, fun _ => none⟩, []⟩ : Process ℝ ℕ)).grids = [(0, 10), (1, 30)] := by
    simp [gridSession, Session.step, GridCall.run, hm, hd, GridCall.asked, PyVal.toInt]
  refine ⟨_, rfl, hg, ?_, ?_, ?_⟩
  · exact C99_own_partial _ _ (fun _ => rfl) Function.injective_id (0, 10) (by rw [hg]; simp) 20
  · exact C99_own_partial _ _ (fun _ => rfl) Function.injective_id (1, 30) (by rw [hg]; simp) 20
  · exact C99_own_partial _ _ (fun _ => rfl) Function.injective_id (1, 30) (by rw [hg]; simp) 30

end Beyonce
