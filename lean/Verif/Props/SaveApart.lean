import Verif.Props.SaveAgain

/-!
# Property C146: saves to different directories do not disturb each other
-/

set_option linter.unusedSectionVars false

namespace Beyonce
open Spec

section
variable {K : Type}

/-- A step that makes or writes nothing but a directory and what is in it, and removes nothing. -/
def Spec.Inside (d : Path) : Step K → Prop
  | .mkdir p | .mkdirIfMissing p | .write p _ => d <+: p
  | .raise _ => True
  | .rmtreeIfExists _ => False

/-- The same at a directory, below it, and where it is. -/
def Spec.SameThere (d : Path) (f g : FS K) : Prop := ∀ q, d <+: q ∨ q = d.dropLast → f.at? q = g.at? q

theorem parent_there {d p : Path} (h : d <+: p) : d <+: p.dropLast ∨ p.dropLast = d.dropLast := by
  obtain ⟨t, rfl⟩ := h
  cases t using List.reverseRecOn with
  | nil => exact Or.inr (by rw [List.append_nil])
  | append_singleton t a =>
    left
    rw [← List.append_assoc, List.dropLast_concat]
    exact List.prefix_append _ _

theorem there_isDir {d : Path} {f g : FS K} (h : SameThere d f g) {q : Path} (hq : d <+: q ∨ q = d.dropLast) :
    f.isDir q = g.isDir q := by
  cases q with
  | nil => rfl
  | cons a l =>
    simp only [FS.isDir]
    rw [h _ hq]

theorem there_put {d : Path} {f g : FS K} (h : SameThere d f g) (p : Path) (n : Node K) :
    SameThere d (f.put p n) (g.put p n) := fun q hq => by
  rw [FS.at?_put, FS.at?_put, h q hq]

theorem there_step {d : Path} {f g : FS K} (h : SameThere d f g) (s : Step K) (hs : Inside d s) :
    (∃ e, f.step s = .error e ∧ g.step s = .error e) ∨
    ∃ f' g', f.step s = .ok f' ∧ g.step s = .ok g' ∧ SameThere d f' g' := by
  cases s with
  | rmtreeIfExists p => exact hs.elim
  | raise e => exact Or.inl ⟨e, rfl, rfl⟩
  | write p b =>
    have hp : d <+: p := hs
    simp only [FS.step, FS.write, there_isDir h (Or.inl hp), there_isDir h (parent_there hp)]
    split_ifs
    · exact Or.inl ⟨_, rfl, rfl⟩
    · exact Or.inr ⟨_, _, rfl, rfl, there_put h _ _⟩
    · exact Or.inl ⟨_, rfl, rfl⟩
  | mkdir p =>
    have hp : d <+: p := hs
    have e : f.exists? p = g.exists? p := by simp only [FS.exists?, h p (Or.inl hp)]
    simp only [FS.step, FS.mkdir, there_isDir h (parent_there hp), e]
    split_ifs
    · exact Or.inl ⟨_, rfl, rfl⟩
    · exact Or.inr ⟨_, _, rfl, rfl, there_put h _ _⟩
    · exact Or.inl ⟨_, rfl, rfl⟩
  | mkdirIfMissing p =>
    have hp : d <+: p := hs
    have e : f.exists? p = g.exists? p := by simp only [FS.exists?, h p (Or.inl hp)]
    simp only [FS.step, FS.mkdir, there_isDir h (parent_there hp), e]
    split_ifs
    · exact Or.inr ⟨_, _, rfl, rfl, h⟩
    · exact Or.inr ⟨_, _, rfl, rfl, there_put h _ _⟩
    · exact Or.inl ⟨_, rfl, rfl⟩

/-- What such steps do depends only on what is there. -/
theorem there_run {d : Path} {f g : FS K} (h : SameThere d f g) (ss : List (Step K)) (hs : ∀ s ∈ ss, Inside d s) :
    (f.run ss).1 = (g.run ss).1 ∧ SameThere d (f.run ss).2 (g.run ss).2 := by
  induction ss generalizing f g with
  | nil => exact ⟨rfl, h⟩
  | cons s ss ih =>
    rcases there_step h s (hs s (by simp)) with ⟨e, h1, h2⟩ | ⟨f', g', h1, h2, h3⟩
    · simp only [FS.run, h1, h2]
      exact ⟨trivial, h⟩
    · rw [run_cons_of _ h1, run_cons_of _ h2]
      exact ih h3 fun t ht => hs t (by simp [ht])

/-- Such steps change nothing elsewhere. -/
theorem elsewhere {d q : Path} (hq : ¬ d <+: q) (f : FS K) (ss : List (Step K)) (hs : ∀ s ∈ ss, Inside d s) :
    (f.run ss).2.at? q = f.at? q :=
  FS.run_frame f ss (fun _ h => hs _ h) q (fun _ h => hq (hs _ h)) (fun h => hq (hs _ h)) fun h => hq (hs _ h)

theorem not_above {c d : Path} (h : ¬ d <+: c) : ¬ d <+: c.dropLast := fun k =>
  h (k.trans (List.dropLast_prefix c))

theorem apart_there {c d : Path} (h1 : ¬ c <+: d) (h2 : ¬ d <+: c) (f : FS K) (ts : List (Step K))
    (ht : ∀ s ∈ ts, Inside d s) : SameThere c (f.run ts).2 f := by
  intro q hq
  refine elsewhere ?_ f ts ht
  rcases hq with hq | rfl
  · intro k
    rcases List.prefix_or_prefix_of_prefix hq k with l | l
    · exact h1 l
    · exact h2 l
  · exact not_above h2

theorem apart_run {c d : Path} (h1 : ¬ c <+: d) (h2 : ¬ d <+: c) (f : FS K) (ss ts : List (Step K))
    (hs : ∀ s ∈ ss, Inside c s) (ht : ∀ s ∈ ts, Inside d s) :
    ((f.run ts).2.run ss).1 = (f.run ss).1 ∧ ((f.run ss).2.run ts).1 = (f.run ts).1 ∧
    SameFiles ((f.run ts).2.run ss).2 ((f.run ss).2.run ts).2 := by
  obtain ⟨a1, a2⟩ := there_run (apart_there h1 h2 f ts ht) ss hs
  obtain ⟨b1, b2⟩ := there_run (apart_there h2 h1 f ss hs) ts ht
  refine ⟨a1, b1, fun q => ?_⟩
  by_cases hc : c <+: q
  · have hd : ¬ d <+: q := fun k => (List.prefix_or_prefix_of_prefix hc k).elim h1 h2
    rw [a2 q (Or.inl hc), elsewhere hd _ ts ht]
  · by_cases hd : d <+: q
    · rw [elsewhere hc _ ss hs, b2 q (Or.inl hd)]
    · rw [elsewhere hc _ ss hs, elsewhere hd _ ts ht, elsewhere hd _ ts ht, elsewhere hc _ ss hs]

end

section
variable {K : Type} [Field K] [LinearOrder K] [FloorRing K]

theorem Spec.Inside.below {d : Path} {l : Path} {s : Step K} (h : Inside (d ++ l) s) : Inside d s := by
  cases s with
  | rmtreeIfExists p => exact h.elim
  | raise e => trivial
  | write p b => exact (List.prefix_append d l).trans h
  | mkdir p => exact (List.prefix_append d l).trans h
  | mkdirIfMissing p => exact (List.prefix_append d l).trans h

theorem params_inside (g : GridParams K) (d : Path) : ∀ s ∈ g.saveSteps d, Inside d s := by
  intro s h
  simp only [GridParams.saveSteps, List.mem_cons, List.not_mem_nil, or_false] at h
  rcases h with rfl | rfl | rfl | rfl | rfl
  · exact List.prefix_rfl
  all_goals exact List.prefix_append _ _

theorem diagnostics_inside (g : Diagnostics K) (d : Path) : ∀ s ∈ g.saveSteps d, Inside d s := by
  intro s h
  simp only [Diagnostics.saveSteps, List.mem_cons, List.not_mem_nil, or_false] at h
  rcases h with rfl | rfl | rfl | rfl
  · exact List.prefix_rfl
  all_goals exact List.prefix_append _ _

theorem property_inside (p : GProp K) (d : Path) : ∀ s ∈ p.saveSteps d, Inside d s := by
  intro s h
  simp only [GProp.saveSteps, List.mem_append, List.mem_cons, List.not_mem_nil, or_false] at h
  rcases h with ((rfl | rfl) | h) | h
  · exact List.prefix_rfl
  · exact List.prefix_append _ _
  · cases k : p.mask with
    | none => rw [k] at h; simp at h
    | some m =>
      rw [k] at h
      simp only [List.mem_cons, List.not_mem_nil, or_false] at h
      rw [h]
      exact List.prefix_append _ _
  · exact params_inside _ _ s h

theorem gradient_inside (g : GGrad K) (d : Path) : ∀ s ∈ g.saveSteps d, Inside d s := by
  intro s h
  simp only [GGrad.saveSteps, List.cons_append, List.mem_append, List.mem_cons, List.not_mem_nil, or_false] at h
  rcases h with rfl | ((h | rfl) | h) | h
  · exact List.prefix_append _ _
  · exact (property_inside _ _ s h).below
  · exact (List.prefix_append _ _).trans (List.prefix_append _ _)
  · cases k : g.measured with
    | none => rw [k] at h; simp at h
    | some m =>
      rw [k] at h
      simp only [List.mem_cons, List.not_mem_nil, or_false] at h
      rw [h]
      exact (List.prefix_append _ _).trans (List.prefix_append _ _)
  · exact params_inside _ _ s h

theorem grid_inside (g : Shallot K) (dir : DirArg) (y : PyVal K) : ∀ s ∈ g.saveSteps dir y, Inside dir.path s := by
  intro s h
  simp only [Shallot.saveSteps, List.mem_append, List.mem_cons, List.mem_flatMap] at h
  rcases h with rfl | h | rfl | h | h | h | h | h | h | ⟨a, -, h⟩ | h
  · cases dir <;> exact List.prefix_rfl
  · unfold Shallot.yValueSteps at h
    split at h
    · simp at h
    · split at h
      · simp only [List.mem_cons, List.not_mem_nil, or_false] at h
        rw [h]
        exact List.prefix_append _ _
      · simp only [List.mem_cons, List.not_mem_nil, or_false] at h
        rw [h]
        trivial
  · exact List.prefix_append _ _
  · exact params_inside _ _ s h
  · exact property_inside _ _ s h
  · exact property_inside _ _ s h
  · exact property_inside _ _ s h
  · exact property_inside _ _ s h
  · exact property_inside _ _ s h
  · exact gradient_inside _ _ s h
  · split_ifs at h
    · simp only [List.mem_cons, List.not_mem_nil, or_false] at h
      rw [h]
      trivial
    · simp at h

/-- Saving anything to a directory: grid parameters, diagnostics, a property, a gradient, or a grid. -/
inductive Spec.Saving (K : Type)
  | params (g : GridParams K) (d : Path)
  | diagnostics (g : Diagnostics K) (d : Path)
  | property (p : GProp K) (d : Path)
  | gradient (g : GGrad K) (d : Path)
  | grid (s : Shallot K) (dir : DirArg) (y : PyVal K)

/-- The directory. -/
def Spec.Saving.place : Saving K → Path
  | .params _ d | .diagnostics _ d | .property _ d | .gradient _ d => d
  | .grid _ dir _ => dir.path

/-- What saving does. -/
def Spec.Saving.steps : Saving K → List (Step K)
  | .params g d => g.saveSteps d
  | .diagnostics g d => g.saveSteps d
  | .property p d => p.saveSteps d
  | .gradient g d => g.saveSteps d
  | .grid s dir y => s.saveSteps dir y

theorem saving_inside (x : Saving K) : ∀ s ∈ x.steps, Inside x.place s := by
  cases x with
  | params g d => exact params_inside g d
  | diagnostics g d => exact diagnostics_inside g d
  | property p d => exact property_inside p d
  | gradient g d => exact gradient_inside g d
  | grid s dir y => exact grid_inside s dir y

/-- **C146** Two saves to directories neither of which is within the other: in either order they raise what each
raises alone, and leave the same files. -/
theorem C146_order (x y : Saving K) (h1 : ¬ x.place <+: y.place) (h2 : ¬ y.place <+: x.place) (f : FS K) :
    ((f.run y.steps).2.run x.steps).1 = (f.run x.steps).1 ∧
    ((f.run x.steps).2.run y.steps).1 = (f.run y.steps).1 ∧
    ∀ q, ((f.run y.steps).2.run x.steps).2.at? q = ((f.run x.steps).2.run y.steps).2.at? q :=
  apart_run h1 h2 f _ _ (saving_inside x) (saving_inside y)

/-- **C146** A save leaves everything outside its directory as it is, also when it is interrupted. -/
theorem C146_elsewhere (x : Saving K) (f : FS K) (k : ℕ) (tear : Bool) (q : Path) (hq : ¬ x.place <+: q) :
    (f.run x.steps).2.at? q = f.at? q ∧ (f.crash x.steps k tear).at? q = f.at? q := by
  have a := elsewhere hq f (x.steps.take k) fun s h => saving_inside x s (List.mem_of_mem_take h)
  refine ⟨elsewhere hq f _ (saving_inside x), ?_⟩
  unfold FS.crash
  dsimp only
  split_ifs
  · split
    · rename_i p b hk
      rw [elsewhere (d := x.place) hq _ [.write p .torn] ?_, a]
      intro s h
      rw [List.mem_singleton.1 h]
      exact saving_inside x (.write p b) (List.mem_of_getElem? hk)
    · exact a
  · exact a

end

section
variable {K : Type} [Field K] [LinearOrder K] [IsStrictOrderedRing K] [RealFns K] [FloorRing K]

/-- The same below a directory: the same is loaded from it. -/
theorem same_loaded {d : Path} {f g : FS K} (h : ∀ q, d <+: q → f.at? q = g.at? q) :
    GridParams.load f d = GridParams.load g d ∧ Diagnostics.load f d = Diagnostics.load g d ∧
    (∀ n u, GProp.load f d n u = GProp.load g d n u) ∧ GGrad.load f d = GGrad.load g d := by
  have l : ∀ x : String, f.load (d ++ [x]) = g.load (d ++ [x]) := fun x =>
    FS.load_congr (h _ (List.prefix_append _ _))
  have e : ∀ x : String, f.exists? (d ++ [x]) = g.exists? (d ++ [x]) := fun x => by
    simp only [FS.exists?, h _ (List.prefix_append d [x])]
  have p : GridParams.load f d = GridParams.load g d := by
    simp only [GridParams.load, GridParams.loadBody, GridParams.loadNd, l]
  refine ⟨p, ?_, fun n u => ?_, ?_⟩
  · simp only [Diagnostics.load, Diagnostics.loadBody, Diagnostics.loadDict, Diagnostics.loadPair, l]
  · simp only [GProp.load, GProp.loadBody, GProp.withMaskFile, GProp.loadMask, GridParams.loadNd, l, e, p]
  · simp only [GGrad.load, GGrad.loadBody, GGrad.loadPosition, GGrad.withMaskValues, GridParams.loadNd, l, e, p]

/-- **C146** What is loaded from a directory is not changed by a save to another one, not even by an interrupted
save. -/
theorem C146_loaded (x : Saving K) (d : Path) (h1 : ¬ x.place <+: d) (h2 : ¬ d <+: x.place) (f g : FS K)
    (hg : g = (f.run x.steps).2 ∨ ∃ k tear, g = f.crash x.steps k tear) :
    GridParams.load g d = GridParams.load f d ∧ Diagnostics.load g d = Diagnostics.load f d ∧
    (∀ n u, GProp.load g d n u = GProp.load f d n u) ∧ GGrad.load g d = GGrad.load f d := by
  refine same_loaded fun q hq => ?_
  have hx : ¬ x.place <+: q := fun k => (List.prefix_or_prefix_of_prefix hq k).elim h2 h1
  rcases hg with rfl | ⟨k, tear, rfl⟩
  · exact (C146_elsewhere x f 0 false q hx).1
  · exact (C146_elsewhere x f k tear q hx).2

/-- **C145** What is loaded after an interrupted save was repeated is what is loaded after a save without
interruption, from any directory. -/
theorem C145_loaded (x : Saved K) (c d : Path) (f : FS K) (k : ℕ) (tear : Bool) (a b : FS K)
    (ha : a = ((f.crash (x.steps c) k tear).run (x.steps c)).2) (hb : b = (f.run (x.steps c)).2) :
    GridParams.load a d = GridParams.load b d ∧ Diagnostics.load a d = Diagnostics.load b d ∧
    (∀ n u, GProp.load a d n u = GProp.load b d n u) ∧ GGrad.load a d = GGrad.load b d := by
  subst ha hb
  exact same_loaded fun q _ => (C145_interrupted x c f k tear).2 q

end

/-- Non-vacuity: two diagnostics in two directories; both are there whichever is saved first. In one directory the
order does matter. -/
theorem C146_witness : ∃ a b : Diagnostics ℚ,
    ¬ (Saving.diagnostics a ["a"]).place <+: (Saving.diagnostics b ["b"]).place ∧
    ¬ (Saving.diagnostics b ["b"]).place <+: (Saving.diagnostics a ["a"]).place ∧
    ((FS.run [] (Saving.diagnostics a ["a"]).steps).2.run (Saving.diagnostics b ["b"]).steps).2.load
      ["a", "max_yx.npy"] = .ok (.ints [1, 2]) ∧
    ((FS.run [] (Saving.diagnostics b ["b"]).steps).2.run (Saving.diagnostics a ["a"]).steps).2.load
      ["b", "max_yx.npy"] = .ok (.ints [3, 4]) ∧
    ((FS.run [] (Saving.diagnostics a ["a"]).steps).2.run (Saving.diagnostics b ["a"]).steps).2.load
      ["a", "max_yx.npy"] ≠
    ((FS.run [] (Saving.diagnostics b ["a"]).steps).2.run (Saving.diagnostics a ["a"]).steps).2.load
      ["a", "max_yx.npy"] := by
  refine ⟨⟨1, 2, [], [], false⟩, ⟨3, 4, [], [], false⟩, ?_⟩
  decide +kernel

end Beyonce
