import Verif.Props.ShallotSave

/-!
# Property C145: saving again changes nothing, and completes a save that was interrupted
-/

set_option linter.unusedSectionVars false

namespace Beyonce
open Spec

section
variable {K : Type}

/-- The same directories, and the same files with the same content. -/
def Spec.SameFiles (f g : FS K) : Prop := ∀ q, f.at? q = g.at? q

/-- A step that makes a directory if there is none, writes a file, or raises. -/
def Spec.Overwrites : Step K → Prop
  | .mkdirIfMissing _ | .write _ _ | .raise _ => True
  | _ => False

/-- What is a directory in the first is one in the second; the same for files, whatever is in them. -/
def Spec.Placed (f g : FS K) : Prop := ∀ q, (f.at? q = some .dir → g.at? q = some .dir) ∧
  ∀ b, f.at? q = some (.file b) → ∃ b', g.at? q = some (.file b')

theorem Spec.Placed.refl (f : FS K) : Placed f f := fun _ => ⟨id, fun b h => ⟨b, h⟩⟩

theorem Spec.Placed.trans {f g h : FS K} (a : Placed f g) (b : Placed g h) : Placed f h := fun q =>
  ⟨fun k => (b q).1 ((a q).1 k), fun c k => by
    obtain ⟨c', k'⟩ := (a q).2 c k
    exact (b q).2 c' k'⟩

theorem Spec.Placed.isDir {f g : FS K} (a : Placed f g) {q : Path} (h : f.isDir q = true) : g.isDir q = true := by
  rw [FS.isDir_iff] at h ⊢
  exact h.imp_right (a q).1

theorem Spec.Placed.exists {f g : FS K} (a : Placed f g) {q : Path} (h : f.exists? q = true) : g.exists? q = true := by
  unfold FS.exists? at h ⊢
  cases k : f.at? q with
  | none => rw [k] at h; exact absurd h (by simp)
  | some n => cases n with
    | dir => rw [(a q).1 k]; rfl
    | file b =>
      obtain ⟨b', k'⟩ := (a q).2 b k
      rw [k']; rfl

theorem write_cases {f f' : FS K} {p : Path} {b : Blob K} (h : f.write p b = .ok f') :
    f.isDir p.dropLast = true ∧ f.isDir p = false ∧ f' = f.put p (.file b) := by
  unfold FS.write at h
  split_ifs at h with h1 h2
  · exact ⟨h1, by simpa using h2, (Except.ok.inj h).symm⟩

theorem mkdir_cases {f f' : FS K} {p : Path} (h : f.mkdir p = .ok f') :
    f.at? p = none ∧ f' = f.put p .dir := by
  unfold FS.mkdir at h
  split_ifs at h with h1 h2
  · refine ⟨?_, (Except.ok.inj h).symm⟩
    unfold FS.exists? at h1
    cases k : f.at? p with
    | none => rfl
    | some n => rw [k] at h1; exact absurd rfl h1

theorem placed_put_file {f : FS K} {p : Path} (h : f.isDir p = false) (b : Blob K) : Placed f (f.put p (.file b)) := by
  intro q
  rw [FS.at?_put]
  by_cases e : q = p
  · subst e
    rw [if_pos rfl]
    refine ⟨fun k => ?_, fun _ _ => ⟨b, rfl⟩⟩
    rw [FS.isDir_iff.2 (Or.inr k)] at h
    cases h
  · rw [if_neg e]
    exact ⟨id, fun b h => ⟨b, h⟩⟩

theorem placed_put_dir {f : FS K} {p : Path} (h : f.at? p = none) : Placed f (f.put p .dir) := by
  intro q
  rw [FS.at?_put]
  by_cases e : q = p
  · subst e
    rw [h]
    exact ⟨fun k => (Option.some_ne_none _ k.symm).elim, fun _ k => (Option.some_ne_none _ k.symm).elim⟩
  · rw [if_neg e]
    exact ⟨id, fun b h => ⟨b, h⟩⟩

theorem placed_step {f f' : FS K} {s : Step K} (hs : Overwrites s) (h : f.step s = .ok f') : Placed f f' := by
  cases s with
  | mkdir p => exact hs.elim
  | rmtreeIfExists p => exact hs.elim
  | raise e => cases h
  | write p b =>
    obtain ⟨-, h2, rfl⟩ := write_cases h
    exact placed_put_file h2 b
  | mkdirIfMissing p =>
    simp only [FS.step] at h
    split_ifs at h with h1
    · cases h
      exact .refl _
    · obtain ⟨h2, rfl⟩ := mkdir_cases h
      exact placed_put_dir h2

theorem run_cons_ok {f f' : FS K} {s : Step K} {ss : List (Step K)} (h : f.run (s :: ss) = (.ok (), f')) :
    ∃ f1, f.step s = .ok f1 ∧ f1.run ss = (.ok (), f') := by
  simp only [FS.run] at h
  cases k : f.step s with
  | error e => rw [k] at h; cases (congrArg Prod.fst h)
  | ok f1 => rw [k] at h; exact ⟨f1, rfl, h⟩

theorem run_cons_of {f f1 : FS K} {s : Step K} (ss : List (Step K)) (h : f.step s = .ok f1) :
    f.run (s :: ss) = f1.run ss := by
  simp only [FS.run, h]

theorem placed_run {ss : List (Step K)} (hs : ∀ s ∈ ss, Overwrites s) {f f' : FS K}
    (h : f.run ss = (.ok (), f')) : Placed f f' := by
  induction ss generalizing f with
  | nil => cases h; exact .refl _
  | cons s ss ih =>
    obtain ⟨f1, h1, h2⟩ := run_cons_ok h
    exact (placed_step (hs s (by simp)) h1).trans (ih (fun t ht => hs t (by simp [ht])) h2)

/-- Steps that were carried out can be carried out again on any files that have the same places, and then what was
written is there as it was. -/
theorem redo {ss : List (Step K)} (hs : ∀ s ∈ ss, Overwrites s) {f f' : FS K} (h : f.run ss = (.ok (), f'))
    (g : FS K) (hg : Placed f' g) : ∃ g', g.run ss = (.ok (), g') ∧
      ∀ q, g'.at? q = f'.at? q ∨ (g'.at? q = g.at? q ∧ (f'.at? q = f.at? q ∨ f.at? q = none)) := by
  induction ss generalizing f g with
  | nil => cases h; exact ⟨g, rfl, fun q => Or.inr ⟨rfl, Or.inl rfl⟩⟩
  | cons s ss ih =>
    obtain ⟨f1, h1, h2⟩ := run_cons_ok h
    have hss : ∀ t ∈ ss, Overwrites t := fun t ht => hs t (by simp [ht])
    have w1 : Placed f1 g := (placed_run hss h2).trans hg
    have w0 : Placed f g := (placed_step (hs s (by simp)) h1).trans w1
    cases s with
    | mkdir p => exact (hs (.mkdir p) (by simp)).elim
    | rmtreeIfExists p => exact (hs (.rmtreeIfExists p) (by simp)).elim
    | raise e => cases h1
    | write p b =>
      obtain ⟨d1, d2, rfl⟩ := write_cases h1
      obtain ⟨b', gp⟩ := (w1 p).2 b (by simp)
      have pn : p ≠ [] := by
        rintro rfl
        cases d2
      have e2 : g.isDir p = false := by
        rw [Bool.eq_false_iff]
        intro k
        rcases FS.isDir_iff.1 k with k | k
        · exact pn k
        · rw [gp] at k; cases k
      have e1 : g.step (.write p b) = .ok (g.put p (.file b)) := by
        simp only [FS.step, FS.write, w0.isDir d1, e2, if_true, Bool.false_eq_true, if_false]
      obtain ⟨g', k1, k2⟩ := ih hss h2 (g.put p (.file b)) (hg.trans (placed_put_file e2 b))
      refine ⟨g', by rw [run_cons_of _ e1, k1], fun q => ?_⟩
      rcases k2 q with k | ⟨k, l⟩
      · exact Or.inl k
      · rw [FS.at?_put] at k l
        by_cases e : q = p
        · rw [if_pos e] at k l
          refine Or.inl ?_
          rcases l with l | l
          · rw [k, l]
          · cases l
        · rw [if_neg e] at k l
          exact Or.inr ⟨k, l⟩
    | mkdirIfMissing p =>
      have gp : g.exists? p = true := by
        simp only [FS.step] at h1
        split_ifs at h1 with h3
        · exact w0.exists h3
        · obtain ⟨-, rfl⟩ := mkdir_cases h1
          exact w1.exists (by simp [FS.exists?])
      have e1 : g.step (.mkdirIfMissing p) = .ok g := by
        simp only [FS.step, gp, if_true]
      obtain ⟨g', k1, k2⟩ := ih hss h2 g hg
      refine ⟨g', by rw [run_cons_of _ e1, k1], fun q => ?_⟩
      rcases k2 q with k | ⟨k, l⟩
      · exact Or.inl k
      · refine Or.inr ⟨k, ?_⟩
        simp only [FS.step] at h1
        split_ifs at h1 with h3
        · cases h1
          exact l
        · obtain ⟨n, rfl⟩ := mkdir_cases h1
          rw [FS.at?_put] at l
          by_cases e : q = p
          · rw [e]
            exact Or.inr n
          · rwa [if_neg e] at l

/-! ## The same files -/

theorem same_isDir {f g : FS K} (h : SameFiles f g) (q : Path) : f.isDir q = g.isDir q := by
  cases q with
  | nil => rfl
  | cons a l =>
    simp only [FS.isDir]
    rw [h]

theorem same_put {f g : FS K} (h : SameFiles f g) (p : Path) (n : Node K) : SameFiles (f.put p n) (g.put p n) := fun q => by
  rw [FS.at?_put, FS.at?_put, h]

theorem same_step {f g : FS K} (h : SameFiles f g) (s : Step K) (hs : Overwrites s) :
    (∃ e, f.step s = .error e ∧ g.step s = .error e) ∨
    ∃ f' g', f.step s = .ok f' ∧ g.step s = .ok g' ∧ SameFiles f' g' := by
  cases s with
  | mkdir p => exact hs.elim
  | rmtreeIfExists p => exact hs.elim
  | raise e => exact Or.inl ⟨e, rfl, rfl⟩
  | write p b =>
    simp only [FS.step, FS.write, same_isDir h]
    split_ifs
    · exact Or.inl ⟨_, rfl, rfl⟩
    · exact Or.inr ⟨_, _, rfl, rfl, same_put h _ _⟩
    · exact Or.inl ⟨_, rfl, rfl⟩
  | mkdirIfMissing p =>
    have e : f.exists? p = g.exists? p := by simp only [FS.exists?, h p]
    simp only [FS.step, FS.mkdir, same_isDir h, e]
    split_ifs
    · exact Or.inr ⟨_, _, rfl, rfl, h⟩
    · exact Or.inr ⟨_, _, rfl, rfl, same_put h _ _⟩
    · exact Or.inl ⟨_, rfl, rfl⟩

theorem same_run {f g : FS K} (h : SameFiles f g) (ss : List (Step K)) (hs : ∀ s ∈ ss, Overwrites s) :
    (f.run ss).1 = (g.run ss).1 ∧ SameFiles (f.run ss).2 (g.run ss).2 := by
  induction ss generalizing f g with
  | nil => exact ⟨rfl, h⟩
  | cons s ss ih =>
    rcases same_step h s (hs s (by simp)) with ⟨e, h1, h2⟩ | ⟨f', g', h1, h2, h3⟩
    · simp only [FS.run, h1, h2]
      exact ⟨trivial, h⟩
    · rw [run_cons_of _ h1, run_cons_of _ h2]
      exact ih h3 fun t ht => hs t (by simp [ht])

theorem redo_same {ss : List (Step K)} (hs : ∀ s ∈ ss, Overwrites s) {f f' : FS K} (h : f.run ss = (.ok (), f')) :
    ∃ g', f'.run ss = (.ok (), g') ∧ SameFiles g' f' := by
  obtain ⟨g', h1, h2⟩ := redo hs h f' (.refl _)
  exact ⟨g', h1, fun q => (h2 q).elim id And.left⟩

theorem run_failed {f f' : FS K} {e : Err} {ss : List (Step K)} (h : f.run ss = (.error e, f')) :
    ∃ pre s post, ss = pre ++ s :: post ∧ f.run pre = (.ok (), f') ∧ f'.step s = .error e := by
  induction ss generalizing f with
  | nil => cases congrArg Prod.fst h
  | cons s ss ih =>
    cases k : f.step s with
    | error e' =>
      simp only [FS.run, k] at h
      cases h
      exact ⟨[], s, ss, rfl, rfl, k⟩
    | ok f1 =>
      rw [run_cons_of _ k] at h
      obtain ⟨pre, t, post, rfl, h1, h2⟩ := ih h
      exact ⟨s :: pre, t, post, rfl, by rw [run_cons_of _ k, h1], h2⟩

/-- Carrying out such steps twice is carrying them out once, whether they raise or not. -/
theorem run_twice (ss : List (Step K)) (hs : ∀ s ∈ ss, Overwrites s) (f : FS K) :
    ((f.run ss).2.run ss).1 = (f.run ss).1 ∧ SameFiles ((f.run ss).2.run ss).2 (f.run ss).2 := by
  rcases h : f.run ss with ⟨_ | _, f'⟩
  · rename_i e
    obtain ⟨pre, s, post, rfl, h1, h2⟩ := run_failed h
    obtain ⟨g', k1, k2⟩ := redo_same (fun t ht => hs t (by simp [ht])) h1
    have k3 : g'.step s = .error e := by
      rcases same_step k2 s (hs s (by simp)) with ⟨e', a, b⟩ | ⟨_, _, _, b, _⟩
      · rw [h2] at b; rw [a, b]
      · rw [h2] at b; cases b
    have k4 : f'.run (pre ++ s :: post) = (.error e, g') := by
      rw [FS.run_append, k1]
      simp only [FS.run, k3]
    rw [k4]
    exact ⟨rfl, k2⟩
  · obtain ⟨g', k1, k2⟩ := redo_same hs h
    rw [k1]
    exact ⟨rfl, k2⟩

/-- Carrying out such steps after they were interrupted anywhere, in the middle of a file too, gives what carrying
them out without the interruption gives. -/
theorem run_after_crash (ss : List (Step K)) (hs : ∀ s ∈ ss, Overwrites s) (f : FS K) (k : ℕ) (tear : Bool) :
    ((f.crash ss k tear).run ss).1 = (f.run ss).1 ∧ SameFiles ((f.crash ss k tear).run ss).2 (f.run ss).2 := by
  have hpre : ∀ s ∈ ss.take k, Overwrites s := fun s h => hs s (List.mem_of_mem_take h)
  have hpost : ∀ s ∈ ss.drop k, Overwrites s := fun s h => hs s (List.mem_of_mem_drop h)
  have plain : ((f.run (ss.take k)).2.run ss).1 = (f.run ss).1 ∧
      SameFiles ((f.run (ss.take k)).2.run ss).2 (f.run ss).2 := by
    have t := run_twice (ss.take k) hpre f
    have e : ∀ a : FS K, a.run ss = a.run (ss.take k ++ ss.drop k) := fun a => by rw [List.take_append_drop]
    rw [e, e f, FS.run_append, FS.run_append]
    rcases h : f.run (ss.take k) with ⟨_ | _, f'⟩
    · rw [h] at t
      rcases h' : f'.run (ss.take k) with ⟨_ | _, g'⟩
      · rw [h'] at t
        exact ⟨t.1, t.2⟩
      · rw [h'] at t
        cases t.1
    · rw [h] at t
      rcases h' : f'.run (ss.take k) with ⟨_ | _, g'⟩
      · rw [h'] at t
        cases t.1
      · rw [h'] at t
        exact same_run t.2 _ hpost
  unfold FS.crash
  dsimp only
  split_ifs with ht
  swap
  · exact plain
  split
  swap
  · exact plain
  rename_i p b hk
  rcases h : f.run (ss.take k) with ⟨_ | _, f'⟩
  · rw [h] at ht
    simp [Except.isOk, Except.toBool] at ht
  rw [h] at plain
  cases hw : f'.step (.write p .torn) with
  | error e =>
    have : f'.run [.write p .torn] = (.error e, f') := by simp only [FS.run, hw]
    rw [this]
    exact plain
  | ok f1 =>
    rw [run_cons_of _ hw]
    obtain ⟨d1, d2, rfl⟩ := write_cases hw
    show (FS.run _ ss).1 = _ ∧ _
    have es : ss = ss.take k ++ .write p b :: ss.drop (k + 1) := by
      have hl : k < ss.length := by
        by_contra c
        rw [List.getElem?_eq_none (by omega)] at hk
        cases hk
      have : ss[k] = .write p b := by
        rw [List.getElem?_eq_getElem hl] at hk
        exact Option.some.inj hk
      rw [← this, ← List.drop_eq_getElem_cons hl, List.take_append_drop]
    have wf := placed_put_file d2 (.torn : Blob K)
    obtain ⟨g', k1, k2⟩ := redo hpre h _ wf
    have other : ∀ q, q ≠ p → g'.at? q = f'.at? q := fun q hq => by
      rcases k2 q with c | ⟨c, -⟩
      · exact c
      · rw [c, FS.at?_put, if_neg hq]
    have pn : p ≠ [] := by
      rintro rfl
      cases d2
    have hfp : f'.at? p ≠ some .dir := fun c => by
      rw [FS.isDir_iff.2 (Or.inr c)] at d2
      cases d2
    have hgp : g'.isDir p = false := by
      rw [Bool.eq_false_iff]
      intro c
      rcases FS.isDir_iff.1 c with c | c
      · exact pn c
      · rcases k2 p with l | ⟨l, -⟩
        · rw [l] at c
          exact hfp c
        · rw [l, FS.at?_put, if_pos rfl] at c
          cases c
    have hdl : p.dropLast ≠ p := fun c => by
      have := congrArg List.length c
      rw [List.length_dropLast] at this
      have := List.length_pos_of_ne_nil pn
      omega
    have hgd : g'.isDir p.dropLast = true := by
      rw [FS.isDir_iff] at d1 ⊢
      rwa [other _ hdl]
    have s1 : g'.step (.write p b) = .ok (g'.put p (.file b)) := by
      simp only [FS.step, FS.write, hgd, hgp, if_true, Bool.false_eq_true, if_false]
    have s2 : f'.step (.write p b) = .ok (f'.put p (.file b)) := by
      simp only [FS.step, FS.write, d1, d2, if_true, Bool.false_eq_true, if_false]
    have sm : SameFiles (g'.put p (.file b)) (f'.put p (.file b)) := fun q => by
      rw [FS.at?_put, FS.at?_put]
      split_ifs with e
      · rfl
      · exact other q e
    have r1 : (f'.put p (.file .torn)).run ss = (g'.put p (.file b)).run (ss.drop (k + 1)) := by
      conv_lhs => rw [es, FS.run_append, k1]
      exact run_cons_of _ s1
    have r2 : f.run ss = (f'.put p (.file b)).run (ss.drop (k + 1)) := by
      conv_lhs => rw [es, FS.run_append, h]
      exact run_cons_of _ s2
    show ((f'.put p (.file .torn)).run ss).1 = (f.run ss).1 ∧ SameFiles ((f'.put p (.file .torn)).run ss).2 (f.run ss).2
    rw [r1, r2]
    exact same_run sm _ fun s hm => hs s (List.mem_of_mem_drop hm)

end

section
variable {K : Type} [Field K] [LinearOrder K] [FloorRing K]

theorem params_overwrites (g : GridParams K) (d : Path) : ∀ s ∈ g.saveSteps d, Overwrites s := by
  intro s h
  simp only [GridParams.saveSteps, List.mem_cons, List.not_mem_nil, or_false] at h
  rcases h with rfl | rfl | rfl | rfl | rfl <;> trivial

theorem diagnostics_overwrites (g : Diagnostics K) (d : Path) : ∀ s ∈ g.saveSteps d, Overwrites s := by
  intro s h
  simp only [Diagnostics.saveSteps, List.mem_cons, List.not_mem_nil, or_false] at h
  rcases h with rfl | rfl | rfl | rfl <;> trivial

theorem property_overwrites (p : GProp K) (d : Path) : ∀ s ∈ p.saveSteps d, Overwrites s := by
  intro s h
  simp only [GProp.saveSteps, List.mem_append, List.mem_cons, List.not_mem_nil, or_false] at h
  rcases h with ((rfl | rfl) | h) | h
  · trivial
  · trivial
  · cases k : p.mask with
    | none => rw [k] at h; simp at h
    | some m =>
      rw [k] at h
      simp only [List.mem_cons, List.not_mem_nil, or_false] at h
      rw [h]
      trivial
  · exact params_overwrites _ _ s h

theorem gradient_overwrites (g : GGrad K) (d : Path) : ∀ s ∈ g.saveSteps d, Overwrites s := by
  intro s h
  simp only [GGrad.saveSteps, List.cons_append, List.mem_append, List.mem_cons, List.not_mem_nil, or_false] at h
  rcases h with rfl | ((h | rfl) | h) | h
  · trivial
  · exact property_overwrites _ _ s h
  · trivial
  · cases k : g.measured with
    | none => rw [k] at h; simp at h
    | some m =>
      rw [k] at h
      simp only [List.mem_cons, List.not_mem_nil, or_false] at h
      rw [h]
      trivial
  · exact params_overwrites _ _ s h

theorem row_overwrites (g : Shallot K) (d : Path) (y : PyVal K) : ∀ s ∈ g.yValueSteps d y, Overwrites s := by
  intro s h
  unfold Shallot.yValueSteps at h
  split at h
  · simp at h
  · split at h <;>
    · simp only [List.mem_cons, List.not_mem_nil, or_false] at h
      rw [h]
      trivial

theorem grid_tail (g : Shallot K) (dir : DirArg) (y : PyVal K) : ∃ l, (∀ s ∈ l, Overwrites s) ∧
    g.saveSteps dir y = (match dir with
      | .temp => .mkdirIfMissing dir.path
      | .other _ => .mkdir dir.path) :: l := by
  refine ⟨_, fun s h => ?_, rfl⟩
  simp only [List.mem_append, List.mem_cons, List.mem_flatMap] at h
  rcases h with h | rfl | h | h | h | h | h | h | ⟨a, -, h⟩ | h
  · exact row_overwrites _ _ _ s h
  · trivial
  · exact params_overwrites _ _ s h
  · exact property_overwrites _ _ s h
  · exact property_overwrites _ _ s h
  · exact property_overwrites _ _ s h
  · exact property_overwrites _ _ s h
  · exact property_overwrites _ _ s h
  · exact gradient_overwrites _ _ s h
  · split_ifs at h
    · simp only [List.mem_cons, List.not_mem_nil, or_false] at h
      rw [h]
      trivial
    · simp at h

theorem grid_overwrites (g : Shallot K) (y : PyVal K) : ∀ s ∈ g.saveSteps .temp y, Overwrites s := by
  obtain ⟨l, hl, e⟩ := grid_tail g .temp y
  rw [e]
  intro s h
  rcases List.mem_cons.1 h with rfl | h
  · trivial
  · exact hl s h

/-- The calls that save something to a directory: grid parameters, diagnostics, a property, a gradient, and a grid
to the directory for unfinished grids. -/
inductive Spec.Saved (K : Type)
  | params (g : GridParams K)
  | diagnostics (g : Diagnostics K)
  | property (p : GProp K)
  | gradient (g : GGrad K)
  | unfinished (s : Shallot K) (y : PyVal K)

/-- What such a call does; an unfinished grid has a directory of its own. -/
def Spec.Saved.steps : Saved K → Path → List (Step K)
  | .params g, d => g.saveSteps d
  | .diagnostics g, d => g.saveSteps d
  | .property p, d => p.saveSteps d
  | .gradient g, d => g.saveSteps d
  | .unfinished s y, _ => s.saveSteps .temp y

theorem saved_overwrites (x : Saved K) (d : Path) : ∀ s ∈ x.steps d, Overwrites s := by
  cases x with
  | params g => exact params_overwrites g d
  | diagnostics g => exact diagnostics_overwrites g d
  | property p => exact property_overwrites p d
  | gradient g => exact gradient_overwrites g d
  | unfinished s y => exact grid_overwrites s y

/-- **C145** Saving again raises what saving raised, if anything, and leaves every file and directory as it is. -/
theorem C145_again (x : Saved K) (d : Path) (f : FS K) :
    ((f.run (x.steps d)).2.run (x.steps d)).1 = (f.run (x.steps d)).1 ∧
    ∀ q, ((f.run (x.steps d)).2.run (x.steps d)).2.at? q = (f.run (x.steps d)).2.at? q :=
  run_twice _ (saved_overwrites x d) f

/-- **C145** After a save that was interrupted anywhere, saving again leaves the files that one save without the
interruption leaves. -/
theorem C145_interrupted (x : Saved K) (d : Path) (f : FS K) (k : ℕ) (tear : Bool) :
    ((f.crash (x.steps d) k tear).run (x.steps d)).1 = (f.run (x.steps d)).1 ∧
    ∀ q, ((f.crash (x.steps d) k tear).run (x.steps d)).2.at? q = (f.run (x.steps d)).2.at? q :=
  run_after_crash _ (saved_overwrites x d) f k tear

/-- **C145** A grid that is saved to a directory of the caller's: saving it again always raises and changes nothing,
also after the first save was interrupted. -/
theorem C145_grid (s : Shallot K) (p : Path) (y : PyVal K) (f : FS K) (k : ℕ) (hk : 0 < k) (tear : Bool) :
    ∃ e, (f.crash (s.saveSteps (.other p) y) k tear).run (s.saveSteps (.other p) y) =
      (.error e, f.crash (s.saveSteps (.other p) y) k tear) := by
  obtain ⟨l, hl, e⟩ := grid_tail s (.other p) y
  have noRm : ∀ m : List (Step K), (∀ t ∈ m, Overwrites t) → ∀ d, Step.rmtreeIfExists d ∉ m := fun m hm d h => hm _ h
  have stays : ∀ (a : FS K) (m : List (Step K)), (∀ t ∈ m, Overwrites t) → a.exists? p = true →
      (a.run m).2.exists? p = true := by
    intro a m hm h
    unfold FS.exists? at h ⊢
    rcases FS.run_at? a m (noRm m hm) p with c | ⟨b, -, c⟩ | ⟨-, -, c⟩
    · rw [c, h]
    · rw [c]; rfl
    · rw [c]; rfl
  obtain ⟨k, rfl⟩ : ∃ n, k = n + 1 := ⟨k - 1, by omega⟩
  have e' : s.saveSteps (.other p) y = .mkdir p :: l := e
  rw [e']
  cases hm : f.step (.mkdir p) with
  | error x =>
    have r : ∀ m, f.run (.mkdir p :: m) = (.error x, f) := fun m => by simp only [FS.run, hm]
    have c : f.crash (.mkdir p :: l) (k + 1) tear = f := by
      unfold FS.crash
      dsimp only
      rw [List.take_succ_cons, r, if_neg (by simp [Except.isOk, Except.toBool])]
    rw [c, r]
    exact ⟨x, rfl⟩
  | ok f1 =>
    obtain ⟨-, rfl⟩ := mkdir_cases hm
    have h1 : ((f.run ((.mkdir p :: l).take (k + 1))).2).exists? p = true := by
      rw [List.take_succ_cons, run_cons_of _ hm]
      exact stays _ _ (fun t ht => hl t (List.mem_of_mem_take ht)) (by simp [FS.exists?])
    have h2 : (f.crash (.mkdir p :: l) (k + 1) tear).exists? p = true := by
      unfold FS.crash
      dsimp only
      split_ifs
      · split
        · exact stays _ _ (fun t ht => by rw [List.mem_singleton.1 ht]; trivial) h1
        · exact h1
      · exact h1
    refine ⟨.fileExistsError, ?_⟩
    simp only [FS.run, FS.step, FS.mkdir, h2, if_true]

end

/-- Non-vacuity: diagnostics whose saving is interrupted in the second file. The file is there and cannot be loaded,
the third is missing; after saving again all three are there. -/
theorem C145_witness : ∃ (x : Saved ℚ) (f : FS ℚ), f = FS.crash [] (x.steps ["d"]) 2 true ∧
    f.load ["d", "disk_radius_dict.npy"] = .error .valueError ∧
    f.load ["d", "max_yx.npy"] = .error .fileNotFoundError ∧
    (f.run (x.steps ["d"])).1 = .ok () ∧
    (f.run (x.steps ["d"])).2.load ["d", "disk_radius_dict.npy"] = .ok (.dict [((.int 0, .int 0), [.fin 2])]) ∧
    (f.run (x.steps ["d"])).2.load ["d", "max_yx.npy"] = .ok (.ints [3, 4]) := by
  refine ⟨.diagnostics ⟨3, 4, [((.int 0, .int 0), [.fin 1])], [((.int 0, .int 0), [.fin 2])], false⟩, _, rfl, ?_⟩
  decide +kernel

end Beyonce
