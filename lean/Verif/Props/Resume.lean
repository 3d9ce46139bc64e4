import Verif.Props.SavedBuild

/-!
# Property C63: a build that was interrupted goes on

The file system at the moment of the crash holds, in the temporary directory, a mixture of the files of
two consecutive saves.
-/

set_option linter.unusedSectionVars false

namespace Beyonce
open Spec

section
variable {K : Type} [Field K] [LinearOrder K] [IsStrictOrderedRing K] [RealFns K] [FloorRing K]

/-! ## Extending does not look at the diagnostic map -/

theorem fillAll_frame (s : Shallot K) (w : PyVal K) (dm : Option (GProp K)) :
    Shallot.fillAll { s with numFxfy := w, diagnosticMap := dm } =
      ((Shallot.fillAll s).1, { (Shallot.fillAll s).2 with numFxfy := w, diagnosticMap := dm }) := by
  unfold Shallot.fillAll
  simp only [Meth.get_bind]
  cases Shallot.fillQuadrants s.params s.diskRadius with
  | error e => rfl
  | ok a =>
    simp only [Meth.lift_ok_bind, Meth.modify_bind]
    cases Shallot.fillQuadrants s.params s.inclination with
    | error e => rfl
    | ok a =>
      simp only [Meth.lift_ok_bind, Meth.modify_bind]
      cases Shallot.fillQuadrants s.params s.tilt true with
      | error e => rfl
      | ok a =>
        simp only [Meth.lift_ok_bind, Meth.modify_bind]
        cases Shallot.fillQuadrants s.params s.fxMap with
        | error e => rfl
        | ok a =>
          simp only [Meth.lift_ok_bind, Meth.modify_bind]
          cases Shallot.fillQuadrants s.params s.fyMap with
          | error e => rfl
          | ok a => rfl

theorem extendGrid_frame (s : Shallot K) (w : PyVal K) (dm : Option (GProp K)) :
    Shallot.extendGrid { s with numFxfy := w, diagnosticMap := dm } =
      ((Shallot.extendGrid s).1,
        { (Shallot.extendGrid s).2 with numFxfy := w, diagnosticMap := dm }) := by
  have key : ∀ t : Shallot K, (do
      Shallot.fillAll
      Meth.modify fun s => { s with diagnostics := s.diagnostics.map Diagnostics.extend } :
        Meth (Shallot K) Unit) { t with numFxfy := w, diagnosticMap := dm } =
      (((do
      Shallot.fillAll
      Meth.modify fun s => { s with diagnostics := s.diagnostics.map Diagnostics.extend } :
        Meth (Shallot K) Unit) t).1, { ((do
      Shallot.fillAll
      Meth.modify fun s => { s with diagnostics := s.diagnostics.map Diagnostics.extend } :
        Meth (Shallot K) Unit) t).2 with numFxfy := w, diagnosticMap := dm }) := by
    intro t
    rw [Meth.bind_apply, Meth.bind_apply, fillAll_frame]
    generalize Shallot.fillAll t = r
    obtain ⟨r, t'⟩ := r
    cases r <;> rfl
  unfold Shallot.extendGrid
  simp only
  generalize GridParams.extendGrid s.params = r
  obtain ⟨r, g⟩ := r
  cases r with
  | ok u => exact key (Shallot.helpers { s with params := g })
  | error e => cases e <;> rfl

/-- What `finish` makes of a grid does not depend on `num_fxfy` or on an old diagnostic map. -/
theorem finish_frame (s : Shallot K) (w : PyVal K) (dm : Option (GProp K)) :
    Shallot.finish { s with numFxfy := w, diagnosticMap := dm } =
      (Shallot.finish s).map fun u => { u with numFxfy := w } := by
  unfold Shallot.finish
  rw [Meth.bind_apply, Meth.bind_apply, extendGrid_frame]
  generalize Shallot.extendGrid s = r
  obtain ⟨r, t⟩ := r
  cases r with
  | error e => rfl
  | ok u =>
    simp only
    rw [diagnose_ok, diagnose_ok]
    rfl

/-! ## The state of the build -/

/-- The grid when `k` rows are done. -/
def rowsDone (g : GridParams K) (v : PyVal K) (k : ℕ) : Shallot K :=
  aheadOf (emptyGrid g v none) (fun _ => 0) k 0

theorem bare_empty (g : GridParams K) (v : PyVal K) : Bare g (emptyGrid g v none) :=
  ⟨rfl, ⟨rfl, rfl, rfl, rfl⟩, ⟨rfl, rfl, rfl, rfl⟩, ⟨rfl, rfl, rfl, rfl⟩, ⟨rfl, rfl, rfl, rfl⟩,
    ⟨rfl, rfl, rfl, rfl⟩, ⟨rfl, rfl, rfl, rfl, rfl, rfl⟩⟩

theorem ahead_none (g : GridParams K) (num : ℕ) (sel : Shallot.Column K → List (XF K)) :
    cubeAhead g num 0 0 0 sel =
      cubeOf g.dy.data.length g.dx.data.length (2 * g.rf.data.length - 1) fun _ _ _ => .nan := by
  rw [ahead_cubeTo _ _ _ _ _ le_rfl, cubeTo_none]

theorem rowsDone_zero (g : GridParams K) (v : PyVal K) : rowsDone g v 0 = emptyGrid g v none := by
  have hp : (emptyGrid g v none).params = g := rfl
  unfold rowsDone aheadOf
  simp only [hp, ahead_none]
  rfl

theorem rowsDone_tidy (g : GridParams K) (hg : ShapedGrid g) (hc : Consistent g) (v : PyVal K) (k : ℕ) :
    Tidy (rowsDone g v k) := by
  have hsh : [g.dy.data.length, g.dx.data.length, 2 * g.rf.data.length - 1] =
      [g.gridShape.1, g.gridShape.2.1, g.gridShape.2.2] := by rw [hg.grid]
  refine ⟨hc, ⟨rfl, rfl⟩, ⟨rfl, rfl⟩, ⟨rfl, rfl⟩, ⟨rfl, rfl⟩, ⟨rfl, rfl⟩, ?_, ?_⟩
  · intro p hp
    simp only [five, List.mem_cons, List.not_mem_nil, or_false] at hp
    rcases hp with rfl | rfl | rfl | rfl | rfl <;> exact ⟨rfl, hsh⟩
  · intro g hg
    cases hg

/-- A row is built or raises. -/
theorem rowsDone_row (g : GridParams K) (hg : ShapedGrid g) (v : PyVal K) (y : ℕ)
    (hy : y < g.dy.data.length) :
    ((∀ j, j < g.dx.data.length → Buildable g v.toInt.toNat y j) →
      Shallot.buildRow y (rowsDone g v y).params.sliceShape.2 0 (rowsDone g v y) =
        (.ok (), rowsDone g v (y + 1))) ∧
    ((∃ j, j < g.dx.data.length ∧ ¬ Buildable g v.toInt.toNat y j) → ∃ e s',
      Shallot.buildRow y (rowsDone g v y).params.sliceShape.2 0 (rowsDone g v y) = (.error e, s')) :=
  wholeRow_ahead (emptyGrid g v none) (helped_empty g hg v none) rfl (fun _ => 0) y hy

/-- The names of the files, apart from that of the row number. -/
theorem rowsDone_names (g : GridParams K) (hg : ShapedGrid g) (hc : Consistent g) (v : PyVal K) (k : ℕ) :
    (topFiles (rowsDone g v k) .none).map Prod.fst =
      namesOf false false false false false false := by
  exact topFiles_namesOf _ (rowsDone_tidy g hg hc v k) .none false rfl

theorem rowsDone_top (g : GridParams K) (v : PyVal K) (k y : ℕ) :
    topFiles (rowsDone g v k) (.int y) =
      ("y_value.npy", GGrad.npArray [.int y]) :: topFiles (rowsDone g v k) .none := by
  unfold topFiles rowFile
  simp

/-! ## What is in the temporary directory -/

/-- Every file but that of the row number is missing, torn, or that of a grid with at least `y` rows. -/
def Rest (g : GridParams K) (v : PyVal K) (y : ℕ) (c : String → Option (Node K)) : Prop :=
  ∀ f, f ≠ "y_value.npy" → c f = none ∨ ∃ k b, y ≤ k ∧ (f, b) ∈ topFiles (rowsDone g v k) .none ∧
    (c f = some (.file .torn) ∨ c f = some (.file b))

theorem Rest.weaken {g : GridParams K} {v : PyVal K} {y y' : ℕ} {c : String → Option (Node K)}
    (h : Rest g v y c) (hy : y' ≤ y) : Rest g v y' c := by
  intro f hf
  rcases h f hf with h | ⟨k, b, h1, h2, h3⟩
  exacts [Or.inl h, Or.inr ⟨k, b, by omega, h2, h3⟩]

/-- The contents of the directory at a crash. -/
structure Partial (g : GridParams K) (v : PyVal K) (c : String → Option (Node K)) : Prop where
  rest : Rest g v 0 c
  row : (c "y_value.npy" = none ∧ c "num_fxfy.npy" = none) ∨ c "y_value.npy" = some (.file .torn) ∨
    ∃ y, y ≤ g.dy.data.length ∧ c "y_value.npy" = some (.file (GGrad.npArray [.int (y : ℕ)])) ∧
      Rest g v y c ∧ ∀ i j, i < y → j < g.dx.data.length → Buildable g v.toInt.toNat i j

theorem partial_none (g : GridParams K) (v : PyVal K) (c : String → Option (Node K))
    (h : ∀ f, c f = none) : Partial g v c :=
  ⟨fun f _ => Or.inl (h f), Or.inl ⟨h _, h _⟩⟩

/-- The contents between two saves. -/
structure Mid (g : GridParams K) (v : PyVal K) (y : ℕ) (fs : FS K) : Prop where
  rooted : Rooted fs
  kinds : Kinds tempDir fs
  rest : Rest g v y fun f => fs.at? (tempDir ++ [f])
  none : y = 0 → ∀ f, fs.at? (tempDir ++ [f]) = none
  row : 0 < y → fs.at? (tempDir ++ ["y_value.npy"]) =
    some (.file (GGrad.npArray [.int ((y - 1 : ℕ) : ℤ)]))
  bound : y ≤ g.dy.data.length
  before : ∀ i j, i < y → j < g.dx.data.length → Buildable g v.toInt.toNat i j

theorem Mid.partial {g : GridParams K} {v : PyVal K} {y : ℕ} {fs : FS K} (h : Mid g v y fs) :
    Partial g v fun f => fs.at? (tempDir ++ [f]) := by
  refine ⟨h.rest.weaken (Nat.zero_le _), ?_⟩
  rcases Nat.eq_zero_or_pos y with hy | hy
  · exact Or.inl ⟨h.none hy _, h.none hy _⟩
  · have := h.bound
    exact Or.inr (Or.inr ⟨y - 1, by omega, h.row hy, h.rest.weaken (by omega),
      fun i j hi hj => h.before i j (by omega) hj⟩)

/-- Directories that a save of a row makes. -/
theorem rowsDone_mkdir (g : GridParams K) (v : PyVal K) (k y : ℕ) (hy : y ≤ g.dy.data.length) (q : Path) :
    Step.mkdir q ∉ (rowsDone g v k).saveSteps .temp (.int y) ∧
    (Step.mkdirIfMissing q ∈ (rowsDone g v k).saveSteps .temp (.int y) → q = tempDir) := by
  obtain ⟨-, h2, h3⟩ := flat_paths (flat_top (rowsDone g v k) tempDir (.int y) (yrow_nat _ y hy)) q
  have hd : (rowsDone g v k).diagnostics.isSome = false := rfl
  have hgr : (rowsDone g v k).gradients.getD [] = [] := rfl
  rw [save_eq, hgr, hd]
  simp only [List.flatMap_nil, Bool.false_eq_true, if_false, List.append_nil, List.mem_cons, makeStep]
  refine ⟨?_, ?_⟩
  · rintro (h | h)
    · cases h
    · exact h2 h
  · rintro (h | h)
    · cases h; rfl
    · exact h3 h

/-- What a crash leaves, if the first part of the steps goes well. -/
theorem crash_append (fs f : FS K) (a b : List (Step K)) (ha : fs.run a = (.ok (), f)) (k : ℕ) (tear : Bool) :
    fs.crash (a ++ b) (a.length + k) tear = f.crash b k tear := by
  unfold FS.crash
  have h1 : (a ++ b).take (a.length + k) = a ++ b.take k := by
    rw [List.take_append]; simp
  have h2 : (a ++ b)[a.length + k]? = b[k]? := by
    rw [List.getElem?_append_right (by omega)]; simp
  have h3 : fs.run (a ++ b.take k) = f.run (b.take k) := by rw [FS.run_append, ha]
  rw [h1, h2, h3]

theorem crash_before (fs : FS K) (a b : List (Step K)) (k : ℕ) (hk : k < a.length) (tear : Bool) :
    fs.crash (a ++ b) k tear = fs.crash a k tear := by
  unfold FS.crash
  rw [List.take_append_of_le_length hk.le, List.getElem?_append_left hk]

theorem crash_error (fs f : FS K) (e : Err) (a b : List (Step K)) (ha : fs.run a = (.error e, f)) (k : ℕ)
    (tear : Bool) : fs.crash (a ++ b) (a.length + k) tear = f := by
  unfold FS.crash
  have h1 : (a ++ b).take (a.length + k) = a ++ b.take k := by
    rw [List.take_append]; simp
  have h3 : fs.run (a ++ b.take k) = (.error e, f) := by rw [FS.run_append, ha]
  rw [h1, h3]
  simp [Except.isOk, Except.toBool]

/-- What exists is there after a crash, if nothing is removed. -/
theorem crash_keeps (fs : FS K) (ss : List (Step K)) (hs : ∀ d, .rmtreeIfExists d ∉ ss) (k : ℕ)
    (tear : Bool) (q : Path) (h : fs.at? q ≠ none) : (fs.crash ss k tear).at? q ≠ none := by
  rcases crash_at? fs ss hs k tear q with h' | ⟨b, -, h'⟩ | ⟨b, -, h'⟩ | ⟨-, h'⟩
  · rwa [h']
  · rw [h']; simp
  · rw [h']; simp
  · exact absurd h' h

/-- The row number is written first. -/
theorem row_first (g : GridParams K) (v : PyVal K) (fs : FS K) (h : Mid g v 0 fs) (y k : ℕ)
    (hy : y ≤ g.dy.data.length) (j : ℕ) (tear : Bool)
    (hn : (fs.crash ((rowsDone g v k).saveSteps .temp (.int y)) j tear).at?
      (tempDir ++ ["y_value.npy"]) = none) :
    (fs.crash ((rowsDone g v k).saveSteps .temp (.int y)) j tear).at?
      (tempDir ++ ["num_fxfy.npy"]) = none := by
  obtain ⟨a, ha⟩ : ∃ a : List (Step K), a = [.mkdirIfMissing tempDir,
    .write (tempDir ++ ["y_value.npy"]) (GGrad.npArray [.int y])] := ⟨_, rfl⟩
  obtain ⟨b, hb⟩ : ∃ b, (rowsDone g v k).saveSteps .temp (.int y) = a ++ b := by
    rw [save_eq]
    unfold topSteps
    rw [yValueSteps_ok _ _ _ (by simp) (number_row y _ hy _ (.int y)), ha]
    exact ⟨_, rfl⟩
  have hno : ∀ d, Step.rmtreeIfExists d ∉ a ++ b := by
    rw [← hb]; exact save_no_rmtree _ _ _
  rw [hb] at hn ⊢
  have hrun : fs.run a = (.ok (), fs.put (tempDir ++ ["y_value.npy"])
      (.file (GGrad.npArray [.int y]))) := by
    rw [ha, FS.run, FS.step_mkdirIfMissing_exists h.kinds.dir]
    simp only
    rw [FS.run, FS.step_write_ok _ (FS.isDir_iff.2 (Or.inr h.kinds.dir)) (by rw [h.none rfl]; simp)]
    rfl
  by_cases hj : j < a.length
  · rw [crash_before _ _ _ _ hj] at hn ⊢
    rcases crash_at? fs a (fun d hd => hno d (List.mem_append_left _ hd)) j tear
      (tempDir ++ ["num_fxfy.npy"]) with h' | ⟨b, hb, -⟩ | ⟨b, hb, -⟩ | ⟨hm, -⟩
    · rw [h', h.none rfl]
    · rw [ha] at hb; simp [tempDir] at hb
    · rw [ha] at hb; simp [tempDir] at hb
    · rw [ha] at hm; simp [tempDir] at hm
  · obtain ⟨i, rfl⟩ : ∃ i, j = a.length + i := ⟨j - a.length, by omega⟩
    rw [crash_append _ _ _ _ hrun] at hn
    exact absurd hn (crash_keeps _ _ (fun d hd => hno d (List.mem_append_right _ hd)) _ _ _ (by simp))

theorem mid_crash (g : GridParams K) (hg : ShapedGrid g) (hc : Consistent g) (v : PyVal K) (y : ℕ)
    (fs : FS K) (h : Mid g v y fs) (hy : y < g.dy.data.length) (j : ℕ) (tear : Bool) :
    Partial g v fun f => (fs.crash ((rowsDone g v (y + 1)).saveSteps .temp (.int y)) j tear).at?
      (tempDir ++ [f]) := by
  have ht := rowsDone_tidy g hg hc v (y + 1)
  have hmem := fun f b => mem_save_steps (rowsDone g v (y + 1)) ht .temp (.int y)
    (yrow_nat _ y hy.le) f b
  have hmk : ∀ f, ¬ (Step.mkdir (tempDir ++ [f]) ∈ (rowsDone g v (y + 1)).saveSteps .temp (.int y) ∨
      Step.mkdirIfMissing (tempDir ++ [f]) ∈ (rowsDone g v (y + 1)).saveSteps .temp (.int y)) := by
    intro f
    have := rowsDone_mkdir g v (y + 1) y hy.le (tempDir ++ [f])
    rintro (h | h)
    · exact this.1 h
    · have := this.2 h
      simp at this
  have hrest : Rest g v y fun f => (fs.crash ((rowsDone g v (y + 1)).saveSteps .temp (.int y)) j
      tear).at? (tempDir ++ [f]) := by
    intro f hf
    have hin : ∀ b, Step.write (tempDir ++ [f]) b ∈ (rowsDone g v (y + 1)).saveSteps .temp (.int y) →
        (f, b) ∈ topFiles (rowsDone g v (y + 1)) .none := by
      intro b hb
      have := (hmem f b).1 hb
      rw [rowsDone_top, List.mem_cons] at this
      rcases this with h | h
      · exact absurd (congrArg Prod.fst h) hf
      · exact h
    rcases crash_at? fs _ (save_no_rmtree (rowsDone g v (y + 1)) .temp (.int y)) j tear
      (tempDir ++ [f]) with h' | ⟨b, hb, h'⟩ | ⟨b, hb, h'⟩ | ⟨hm, -⟩
    · rcases h.rest f hf with h1 | ⟨k, b, h1, h2, h3⟩
      · exact Or.inl (h'.trans h1)
      · exact Or.inr ⟨k, b, h1, h2, h3.imp (h'.trans ·) (h'.trans ·)⟩
    · exact Or.inr ⟨y + 1, b, by omega, hin b hb, Or.inr h'⟩
    · exact Or.inr ⟨y + 1, b, by omega, hin b hb, Or.inl h'⟩
    · exact absurd hm (hmk f)
  refine ⟨hrest.weaken (Nat.zero_le _), ?_⟩
  rcases crash_at? fs _ (save_no_rmtree (rowsDone g v (y + 1)) .temp (.int y)) j tear
      (tempDir ++ ["y_value.npy"]) with h' | ⟨b, hb, h'⟩ | ⟨b, hb, h'⟩ | ⟨hm, -⟩
  · rcases Nat.eq_zero_or_pos y with h0 | h0
    · left
      subst h0
      have hn := h'.trans (h.none rfl _)
      exact ⟨hn, row_first g v fs h 0 1 (Nat.zero_le _) j tear hn⟩
    · exact Or.inr (Or.inr ⟨y - 1, by omega, h'.trans (h.row h0), hrest.weaken (by omega),
        fun i j hi hj => h.before i j (by omega) hj⟩)
  · have hin := (hmem _ _).1 hb
    have : b = GGrad.npArray [.int y] :=
      topFiles_unique _ ht (.int y) _ _ _ (by rw [rowsDone_top]; exact List.mem_cons_self ..) hin
    subst this
    exact Or.inr (Or.inr ⟨y, hy.le, h', hrest, h.before⟩)
  · exact Or.inr (Or.inl h')
  · exact absurd hm (hmk _)

theorem mid_run (g : GridParams K) (hg : ShapedGrid g) (hc : Consistent g) (v : PyVal K) (y : ℕ)
    (fs : FS K) (h : Mid g v y fs) (hy : y < g.dy.data.length)
    (hrow : ∀ j, j < g.dx.data.length → Buildable g v.toInt.toNat y j) : ∃ fs',
    fs.run ((rowsDone g v (y + 1)).saveSteps .temp (.int y)) = (.ok (), fs') ∧ Mid g v (y + 1) fs' := by
  have ht := rowsDone_tidy g hg hc v (y + 1)
  obtain ⟨fs', hk, hr⟩ := save_temp fs h.kinds (rowsDone g v (y + 1)) (.int y) (yrow_nat _ y hy.le)
  have hr' : fs.run ((rowsDone g v (y + 1)).saveSteps .temp (.int y)) = (.ok (), fs') := hr
  have hfiles := fun f b => save_files (rowsDone g v (y + 1)) ht .temp (.int y) (yrow_nat _ y hy.le) hr'
    f b
  have hmem := fun f b => mem_save_steps (rowsDone g v (y + 1)) ht .temp (.int y)
    (yrow_nat _ y hy.le) f b
  refine ⟨fs', hr', ?_, hk, ?_, by omega, ?_, by omega, ?_⟩
  · have := rooted_run ((rowsDone g v (y + 1)).saveSteps .temp (.int y)) h.rooted
    rwa [hr'] at this
  · intro f hf
    by_cases hin : f ∈ namesOf false false false false false false
    · rw [← rowsDone_names g hg hc v (y + 1)] at hin
      obtain ⟨⟨f', b⟩, hb, rfl⟩ := List.mem_map.1 hin
      refine Or.inr ⟨y + 1, b, le_rfl, hb, Or.inr (hfiles _ b ?_)⟩
      rw [rowsDone_top]
      exact List.mem_cons_of_mem _ hb
    · left
      have hnot : ∀ k b, (f, b) ∉ topFiles (rowsDone g v k) .none := by
        intro k b hb
        refine hin ?_
        rw [← rowsDone_names g hg hc v k]
        exact List.mem_map.2 ⟨_, hb, rfl⟩
      have hold : fs.at? (tempDir ++ [f]) = none := by
        rcases h.rest f hf with h1 | ⟨k, b, -, h2, -⟩
        · exact h1
        · exact absurd h2 (hnot k b)
      have := FS.run_at? fs _ (save_no_rmtree (rowsDone g v (y + 1)) .temp (.int y)) (tempDir ++ [f])
      rw [hr'] at this
      rcases this with h' | ⟨b, hb, -⟩ | ⟨hm, -⟩
      · exact h'.trans hold
      · have := (hmem f b).1 hb
        rw [rowsDone_top, List.mem_cons] at this
        rcases this with h | h
        · exact absurd (congrArg Prod.fst h) hf
        · exact absurd h (hnot _ _)
      · have h5 := rowsDone_mkdir g v (y + 1) y hy.le (tempDir ++ [f])
        rcases hm with hm | hm
        · exact absurd hm h5.1
        · have := h5.2 hm
          simp at this
  · intro _
    refine hfiles _ _ ?_
    rw [rowsDone_top]
    exact List.mem_cons_self ..
  · intro i j hi hj
    rcases Nat.lt_succ_iff_lt_or_eq.1 hi with hi | rfl
    · exact h.before i j hi hj
    · exact hrow j hj

/-- Steps of the rows. -/
theorem rowsTrace_zero (g : GridParams K) (hg : ShapedGrid g) (v : PyVal K) :
    Shallot.rowsTrace true 0 g.dy.data.length (rowsDone g v g.dy.data.length) = [] := by
  obtain ⟨dm, h⟩ := recolor_ahead g (emptyGrid g v none) (helped_empty g hg v none) (bare_empty g v)
    (fun _ => 0)
  unfold Shallot.rowsTrace
  unfold rowsDone
  rw [h]

/-- Wherever the rows are interrupted. -/
theorem rows_crash (g : GridParams K) (hg : ShapedGrid g) (hc : Consistent g) (v : PyVal K) :
    ∀ (n y : ℕ) (fs : FS K), y + n = g.dy.data.length → Mid g v y fs → ∀ (j : ℕ) (tear : Bool),
    Partial g v fun f => (fs.crash (Shallot.rowsTrace true n y (rowsDone g v y) ++
      [.rmtreeIfExists tempDir]) j tear).at? (tempDir ++ [f]) := by
  intro n
  induction n with
  | zero =>
    intro y fs hy h j tear
    obtain rfl : y = g.dy.data.length := by omega
    rw [rowsTrace_zero g hg, List.nil_append]
    cases j with
    | zero =>
      have : fs.crash [Step.rmtreeIfExists tempDir] 0 tear = fs := by
        unfold FS.crash; cases tear <;> rfl
      rw [this]
      exact h.partial
    | succ j =>
      have : fs.crash [Step.rmtreeIfExists tempDir] (j + 1) tear = cleaned fs := by
        unfold FS.crash
        rw [List.take_of_length_le (by simp), List.getElem?_eq_none (by simp)]
        cases tear <;> rfl
      rw [this]
      refine partial_none _ _ _ fun f => ?_
      rw [cleaned_at? fs h.rooted, if_pos (List.prefix_append _ _)]
  | succ n ih =>
    intro y fs hy h j tear
    have hlt : y < g.dy.data.length := by omega
    have hrow := rowsDone_row g hg v y hlt
    unfold Shallot.rowsTrace
    by_cases hall : ∀ j, j < g.dx.data.length → Buildable g v.toInt.toNat y j
    · rw [hrow.1 hall]
      simp only [if_true]
      rw [List.append_assoc]
      obtain ⟨fs', h1, h2⟩ := mid_run g hg hc v y fs h hlt hall
      by_cases hj : j < ((rowsDone g v (y + 1)).saveSteps .temp (.int y)).length
      · rw [crash_before _ _ _ _ hj]
        exact mid_crash g hg hc v y fs h hlt j tear
      · obtain ⟨i, rfl⟩ : ∃ i, j = ((rowsDone g v (y + 1)).saveSteps .temp (.int y)).length + i :=
          ⟨j - ((rowsDone g v (y + 1)).saveSteps .temp (.int y)).length, by omega⟩
        rw [crash_append _ _ _ _ h1]
        exact ih (y + 1) fs' (by omega) h2 i tear
    · push Not at hall
      obtain ⟨e, s', h1⟩ := hrow.2 hall
      rw [h1]
      simp only
      cases j with
      | zero =>
        have : ∀ l : List (Step K), fs.crash (Step.raise e :: l) 0 tear = fs := by
          intro l; unfold FS.crash; cases tear <;> rfl
        rw [List.cons_append, this]
        exact h.partial
      | succ j =>
        have := crash_error fs fs e [Step.raise e] [.rmtreeIfExists tempDir] rfl j tear
        rw [show ([Step.raise e] : List (Step K)).length + j = j + 1 by simp [Nat.add_comm]] at this
        rw [this]
        exact h.partial

theorem rows_run (g : GridParams K) (hg : ShapedGrid g) (hc : Consistent g) (v : PyVal K)
    (hall : ∀ i j, i < g.dy.data.length → j < g.dx.data.length → Buildable g v.toInt.toNat i j) :
    ∀ (n y : ℕ) (fs : FS K), y + n = g.dy.data.length → Mid g v y fs →
    ∃ fs', fs.run (Shallot.rowsTrace true n y (rowsDone g v y) ++
      [.rmtreeIfExists tempDir]) = (.ok (), fs') := by
  intro n
  induction n with
  | zero =>
    intro y fs hy h
    obtain rfl : y = g.dy.data.length := by omega
    rw [rowsTrace_zero g hg, List.nil_append]
    exact ⟨_, rfl⟩
  | succ n ih =>
    intro y fs hy h
    have hlt : y < g.dy.data.length := by omega
    have hrow := rowsDone_row g hg v y hlt
    unfold Shallot.rowsTrace
    rw [hrow.1 (fun j hj => hall y j hlt hj)]
    simp only [if_true]
    rw [List.append_assoc]
    obtain ⟨fs', h1, h2⟩ := mid_run g hg hc v y fs h hlt (fun j hj => hall y j hlt hj)
    rw [FS.run_append, h1]
    exact ih (y + 1) fs' (by omega) h2

theorem mid_start (g : GridParams K) (v : PyVal K) (fs : FS K) (hfs : Rooted fs) :
    Mid g v 0 ((cleaned fs).put tempDir .dir) := by
  obtain ⟨-, h1, h2, h3⟩ := temp_new fs hfs []
  have hn : ∀ f, ((cleaned fs).put tempDir .dir).at? (tempDir ++ [f]) = none :=
    fun f => h3 [f] (by simp)
  exact ⟨rooted_put_dir h1 rfl, h2, fun f _ => Or.inl (hn f), fun _ => hn, by omega, Nat.zero_le _,
    by omega⟩

/-- Wherever a build is interrupted, once it has removed the files of earlier builds. -/
theorem trace_crash (g : GridParams K) (hg : ShapedGrid g) (hc : Consistent g) (v : PyVal K)
    (fs : FS K) (hfs : Rooted fs) (j : ℕ) (hj : 1 ≤ j) (tear : Bool) :
    Partial g v fun f => (fs.crash (Shallot.trace true 0 (Shallot.bare g v false)) j tear).at?
      (tempDir ++ [f]) := by
  have htr := trace_new g hg v false
  rw [if_neg (by simp), ← rowsDone_zero] at htr
  rw [htr]
  obtain ⟨ts, hts⟩ : ∃ ts, ts = Shallot.rowsTrace true g.dy.data.length 0 (rowsDone g v 0) ++
    [Step.rmtreeIfExists tempDir] := ⟨_, rfl⟩
  rw [← hts]
  by_cases h1 : j = 1
  · subst h1
    refine partial_none _ _ _ fun f => ?_
    have : fs.crash (Step.rmtreeIfExists tempDir :: Step.mkdir tempDir :: ts) 1 tear = cleaned fs := by
      unfold FS.crash; cases tear <;> rfl
    rw [this, cleaned_at? fs hfs, if_pos (List.prefix_append _ _)]
  · obtain ⟨i, rfl⟩ : ∃ i, j = ([Step.rmtreeIfExists tempDir, Step.mkdir tempDir] : List (Step K)).length + i :=
      ⟨j - 2, by simp; omega⟩
    have hr := (temp_new fs hfs []).1
    have := crash_append fs _ [Step.rmtreeIfExists tempDir, Step.mkdir tempDir] ts hr i tear
    rw [List.cons_append, List.cons_append, List.nil_append] at this
    rw [this, hts]
    exact rows_crash g hg hc v _ 0 _ (by omega) (mid_start g v fs hfs) i tear

/-! ## Loading what a crash has left -/

/-- A file that can be read is not torn. -/
theorem rest_file {g : GridParams K} (hg : ShapedGrid g) (hc : Consistent g) {v : PyVal K} {y : ℕ}
    {fs : FS K} {d : Path} (h : Rest g v y fun f => fs.at? (d ++ [f])) {f : String}
    (hf : f ≠ "y_value.npy") {b : Blob K} (hl : fs.load (d ++ [f]) = .ok b) :
    ∃ k, y ≤ k ∧ (f, b) ∈ topFiles (rowsDone g v k) .none ∧ fs.at? (d ++ [f]) = some (.file b) := by
  obtain ⟨h1, h2⟩ := FS.load_ok_at? hl
  have hr := h f hf
  simp only at hr
  rcases hr with h' | ⟨k, b', h3, h4, h5⟩
  · rw [h1] at h'; cases h'
  · rcases h5 with h5 | h5
    · rw [h1] at h5
      exact absurd (by simpa using h5) h2
    · rw [h1] at h5
      obtain rfl : b = b' := by simpa using h5
      exact ⟨k, h3, h4, h1⟩

theorem rest_none {g : GridParams K} (hg : ShapedGrid g) (hc : Consistent g) {v : PyVal K} {y : ℕ}
    {fs : FS K} {d : Path} (h : Rest g v y fun f => fs.at? (d ++ [f])) {f : String}
    (hf : f ≠ "y_value.npy") (hn : f ∉ namesOf false false false false false false) :
    fs.at? (d ++ [f]) = none := by
  rcases h f hf with h' | ⟨k, b, -, h4, -⟩
  · exact h'
  · refine absurd ?_ hn
    rw [← rowsDone_names g hg hc v k]
    exact List.mem_map.2 ⟨_, h4, rfl⟩

theorem prop_load_file {fs : FS K} {d : Path} {name : PropName} {unit : PropUnit} {p : GProp K}
    (h : GProp.load fs d name unit = .ok p) :
    ∃ b, fs.load (d ++ [GProp.fileName name unit ++ ".npy"]) = .ok b := by
  unfold GProp.load GProp.loadBody GridParams.loadNd at h
  cases hl : fs.load (d ++ [GProp.fileName name unit ++ ".npy"]) with
  | ok b => exact ⟨b, rfl⟩
  | error e => rw [hl] at h; cases h

theorem loadAttributes_ok {fs : FS K} {d : Path} {t s : Shallot K}
    (h : Shallot.loadAttributes fs d t = .ok s) :
    (∃ n, loadScalar fs (d ++ ["num_fxfy.npy"]) = .ok n) ∧ (∃ g, GridParams.load fs d = .ok g) ∧
    (∃ p, GProp.load fs d .diskRadius .eclipseDuration = .ok p) ∧
    (∃ p, GProp.load fs d .inclination .degree = .ok p) ∧
    (∃ p, GProp.load fs d .tilt .degree = .ok p) ∧ (∃ p, GProp.load fs d .fxMap .none = .ok p) ∧
    (∃ p, GProp.load fs d .fyMap .none = .ok p) := by
  unfold Shallot.loadAttributes at h
  cases h1 : loadScalar fs (d ++ ["num_fxfy.npy"]) with
  | error e => rw [h1] at h; cases h
  | ok n =>
    rw [h1] at h
    cases h2 : GridParams.load fs d with
    | error e => rw [h2] at h; cases h
    | ok g =>
      rw [h2] at h
      cases h3 : GProp.load fs d .diskRadius .eclipseDuration with
      | error e => rw [h3] at h; cases h
      | ok a =>
        rw [h3] at h
        cases h4 : GProp.load fs d .inclination .degree with
        | error e => rw [h4] at h; cases h
        | ok b =>
          rw [h4] at h
          cases h5 : GProp.load fs d .tilt .degree with
          | error e => rw [h5] at h; cases h
          | ok c =>
            rw [h5] at h
            cases h6 : GProp.load fs d .fxMap .none with
            | error e => rw [h6] at h; cases h
            | ok x =>
              rw [h6] at h
              cases h7 : GProp.load fs d .fyMap .none with
              | error e => rw [h7] at h; cases h
              | ok z => exact ⟨⟨n, rfl⟩, ⟨g, rfl⟩, ⟨a, rfl⟩, ⟨b, rfl⟩, ⟨c, rfl⟩, ⟨x, rfl⟩, ⟨z, rfl⟩⟩

theorem ahead_shift (g : GridParams K) (num y k : ℕ) (sel : Shallot.Column K → List (XF K)) (h : y ≤ k) :
    cubeAhead g num k 0 0 sel = cubeAhead g num y 0 k sel := by
  refine ahead_ext _ _ _ _ _ _ _ _ _ ?_
  intro y' x' _ _
  left
  simp only [before, decide_eq_true_eq]
  omega

/-- The file of a cube. -/
theorem cube_file {g : GridParams K} (hg : ShapedGrid g) (hc : Consistent g) {v : PyVal K} {y : ℕ}
    {fs : FS K} {d : Path} (h : Rest g v y fun f => fs.at? (d ++ [f])) (name : PropName)
    (unit : PropUnit) (sel : Shallot.Column K → List (XF K))
    (hp : ∃ b, fs.load (d ++ [GProp.fileName name unit ++ ".npy"]) = .ok b)
    (hf : GProp.fileName name unit ++ ".npy" ≠ "y_value.npy")
    (hin : ∀ k, (GProp.fileName name unit ++ ".npy",
      Blob.floats (cubeAhead g v.toInt.toNat k 0 0 sel).shape (cubeAhead g v.toInt.toNat k 0 0 sel).data) ∈
        topFiles (rowsDone g v k) .none) :
    ∃ k, y ≤ k ∧ fs.at? (d ++ [GProp.fileName name unit ++ ".npy"]) =
      some (.file (.floats (cubeAhead g v.toInt.toNat y 0 k sel).shape
        (cubeAhead g v.toInt.toNat y 0 k sel).data)) := by
  obtain ⟨b, hb⟩ := hp
  obtain ⟨k, h1, h2, h3⟩ := rest_file hg hc h hf hb
  refine ⟨k, h1, ?_⟩
  have := topFiles_unique _ (rowsDone_tidy g hg hc v k) .none _ _ _ (hin k) h2
  rw [h3, this, ahead_shift _ _ _ _ _ h1]

theorem top_of_five (s : Shallot K) (y : PyVal K) (p : GProp K) (h : p ∈ five s) :
    (GProp.fileName p.name p.unit ++ ".npy", Blob.floats p.data.shape p.data.data) ∈ topFiles s y := by
  unfold topFiles
  refine List.mem_append_right _ (List.mem_cons_of_mem _ (List.mem_append_right _ ?_))
  refine List.mem_flatMap.2 ⟨p, h, ?_⟩
  unfold propFiles
  exact List.mem_cons_self ..

theorem top_of_grid (s : Shallot K) (y : PyVal K) (e : String × Blob K) (h : e ∈ gridFiles s.params) :
    e ∈ topFiles s y := by
  unfold topFiles
  exact List.mem_append_right _ (List.mem_cons_of_mem _ (List.mem_append_left _ h))

theorem loadScalar_file {fs : FS K} {q : Path} {x : PyVal K} (h : loadScalar fs q = .ok x) :
    ∃ b, fs.load q = .ok b := by
  unfold loadScalar at h
  cases hl : fs.load q with
  | ok b => exact ⟨b, rfl⟩
  | error e => rw [hl] at h; cases h

theorem loadNd_load {fs : FS K} {q : Path} {x : Nd K} (h : GridParams.loadNd fs q = .ok x) :
    ∃ b, fs.load q = .ok b := by
  unfold GridParams.loadNd at h
  cases hl : fs.load q with
  | ok b => exact ⟨b, rfl⟩
  | error e => rw [hl] at h; cases h

/-- All files of a grid can be read. -/
def Readable (fs : FS K) (d : Path) : Prop :=
  ∀ f ∈ namesOf false false false false false false, ∃ b, fs.load (d ++ [f]) = .ok b

theorem readable_of {fs : FS K} {d : Path} {t s : Shallot K}
    (hl : Shallot.loadAttributes fs d t = .ok s) : Readable fs d := by
  obtain ⟨⟨n, hn⟩, ⟨g', hg'⟩, ⟨p1, l1⟩, ⟨p2, l2⟩, ⟨p3, l3⟩, ⟨p4, l4⟩, ⟨p5, l5⟩⟩ := loadAttributes_ok hl
  have hh := load_ok_hasGrid hg'
  intro f hf
  simp only [namesOf, Bool.false_eq_true, if_false, List.nil_append, List.mem_append, List.mem_cons,
    List.not_mem_nil, or_false] at hf
  rcases hf with (rfl | rfl | rfl | rfl | rfl) | rfl | rfl | rfl | rfl | rfl
  · exact loadScalar_file hn
  · exact ⟨_, FS.load_eq_ok hh.dx (by simp)⟩
  · exact ⟨_, FS.load_eq_ok hh.dy (by simp)⟩
  · exact ⟨_, FS.load_eq_ok hh.rf (by simp)⟩
  · exact ⟨_, FS.load_eq_ok hh.rfArray (by simp)⟩
  · exact prop_load_file l1
  · exact prop_load_file l2
  · exact prop_load_file l3
  · exact prop_load_file l4
  · exact prop_load_file l5

/-- If the files can be read, the directory holds a grid with at least `y` rows. -/
theorem rest_stored {g : GridParams K} (hg : ShapedGrid g) (hc : Consistent g) {v : PyVal K} {y : ℕ}
    {fs : FS K} {d : Path} (h : Rest g v y fun f => fs.at? (d ++ [f]))
    (hl : Readable fs d) : ∃ m : Cube → ℕ, (∀ c, y ≤ m c) ∧
      Stored fs d (aheadOf (emptyGrid g v none) m y 0) := by
  obtain ⟨k1, i1, j1⟩ := cube_file hg hc h .diskRadius .eclipseDuration (·.diskRadius)
    (hl _ (by decide)) (by decide)
    (fun k => top_of_five (rowsDone g v k) .none (rowsDone g v k).diskRadius (by simp [five]))
  obtain ⟨k2, i2, j2⟩ := cube_file hg hc h .inclination .degree (·.inclination)
    (hl _ (by decide)) (by decide)
    (fun k => top_of_five (rowsDone g v k) .none (rowsDone g v k).inclination (by simp [five]))
  obtain ⟨k3, i3, j3⟩ := cube_file hg hc h .tilt .degree (·.tilt)
    (hl _ (by decide)) (by decide)
    (fun k => top_of_five (rowsDone g v k) .none (rowsDone g v k).tilt (by simp [five]))
  obtain ⟨k4, i4, j4⟩ := cube_file hg hc h .fxMap .none (·.fx)
    (hl _ (by decide)) (by decide)
    (fun k => top_of_five (rowsDone g v k) .none (rowsDone g v k).fxMap (by simp [five]))
  obtain ⟨k5, i5, j5⟩ := cube_file hg hc h .fyMap .none (·.fyValid)
    (hl _ (by decide)) (by decide)
    (fun k => top_of_five (rowsDone g v k) .none (rowsDone g v k).fyMap (by simp [five]))
  have hgf : ∀ e ∈ gridFiles g, (∃ b, fs.load (d ++ [e.1]) = .ok b) → e.1 ≠ "y_value.npy" →
      fs.at? (d ++ [e.1]) = some (.file e.2) := by
    rintro e he ⟨b, hb⟩ hne
    obtain ⟨k, -, h2, h3⟩ := rest_file hg hc h hne hb
    have := topFiles_unique _ (rowsDone_tidy g hg hc v k) .none _ _ _
      (top_of_grid (rowsDone g v k) .none e he) h2
    rw [h3, this]
  have hgrid : HasGrid fs d g := by
    have q1 := hgf ("dx.npy", .floats g.dx.shape g.dx.data) (by simp [gridFiles])
      (hl "dx.npy" (by decide))
      (show "dx.npy" ≠ "y_value.npy" by decide)
    have q2 := hgf ("dy.npy", .floats g.dy.shape g.dy.data) (by simp [gridFiles])
      (hl "dy.npy" (by decide))
      (show "dy.npy" ≠ "y_value.npy" by decide)
    have q3 := hgf ("rf.npy", .floats g.rf.shape g.rf.data) (by simp [gridFiles])
      (hl "rf.npy" (by decide))
      (show "rf.npy" ≠ "y_value.npy" by decide)
    have q4 := hgf ("rf_array.npy", .floats g.rfArray.shape g.rfArray.data) (by simp [gridFiles])
      (hl "rf_array.npy" (by decide))
      (show "rf_array.npy" ≠ "y_value.npy" by decide)
    exact ⟨q1, q2, q3, q4⟩
  have hnum : fs.at? (d ++ ["num_fxfy.npy"]) = some (.file (GGrad.npArray [v])) := by
    obtain ⟨b, hb⟩ := hl "num_fxfy.npy" (by decide)
    obtain ⟨k, -, h2, h3⟩ := rest_file hg hc h (by decide) hb
    have hin : ("num_fxfy.npy", GGrad.npArray [v]) ∈ topFiles (rowsDone g v k) .none := by
      unfold topFiles
      exact List.mem_append_right _ (List.mem_cons_self ..)
    have := topFiles_unique _ (rowsDone_tidy g hg hc v k) .none _ _ _ hin h2
    rw [h3, this]
  obtain ⟨m, hm⟩ : ∃ m : Cube → ℕ, m = fun c => match c with
    | .diskRadius => k1 | .inclination => k2 | .tilt => k3 | .fxMap => k4 | .fyMap => k5 | _ => y :=
    ⟨_, rfl⟩
  have m1 : m .diskRadius = k1 := by rw [hm]
  have m2 : m .inclination = k2 := by rw [hm]
  have m3 : m .tilt = k3 := by rw [hm]
  have m4 : m .fxMap = k4 := by rw [hm]
  have m5 : m .fyMap = k5 := by rw [hm]
  rw [← m1] at j1
  rw [← m2] at j2
  rw [← m3] at j3
  rw [← m4] at j4
  rw [← m5] at j5
  refine ⟨m, ?_, ?_, hnum, ?_, rest_none hg hc h (by decide) (by decide)⟩
  · intro c
    cases c <;> simp only [hm] <;> first | assumption | exact le_rfl
  · have hsh : [g.dy.data.length, g.dx.data.length, 2 * g.rf.data.length - 1] =
        [g.gridShape.1, g.gridShape.2.1, g.gridShape.2.2] := by rw [hg.grid]
    refine ⟨hc, ⟨rfl, rfl⟩, ⟨rfl, rfl⟩, ⟨rfl, rfl⟩, ⟨rfl, rfl⟩, ⟨rfl, rfl⟩, ?_, ?_⟩
    · intro p hp
      simp only [five, List.mem_cons, List.not_mem_nil, or_false] at hp
      rcases hp with rfl | rfl | rfl | rfl | rfl <;> exact ⟨rfl, hsh⟩
    · intro g hg
      cases hg
  · intro p hp
    simp only [five, List.mem_cons, List.not_mem_nil, or_false] at hp
    rcases hp with rfl | rfl | rfl | rfl | rfl
    · exact ⟨j1, rest_none hg hc h (f := GProp.fileName .diskRadius .eclipseDuration ++ "_mask.npy")
        (by decide) (by decide), hgrid⟩
    · exact ⟨j2, rest_none hg hc h (f := GProp.fileName .inclination .degree ++ "_mask.npy")
        (by decide) (by decide), hgrid⟩
    · exact ⟨j3, rest_none hg hc h (f := GProp.fileName .tilt .degree ++ "_mask.npy")
        (by decide) (by decide), hgrid⟩
    · exact ⟨j4, rest_none hg hc h (f := GProp.fileName .fxMap .none ++ "_mask.npy")
        (by decide) (by decide), hgrid⟩
    · exact ⟨j5, rest_none hg hc h (f := GProp.fileName .fyMap .none ++ "_mask.npy")
        (by decide) (by decide), hgrid⟩

/-! ## Going on -/

theorem initialise_any (s : Shallot K) (hg : ShapedGrid s.params) (hd : s.diagnostics = none) :
    ∃ s', Shallot.initialise s = (.ok (), s') ∧ s' = aheadOf s' (fun _ => 0) 0 0 ∧
      s'.numFxfy = s.numFxfy ∧ s'.params = s.params ∧ s'.circularRadius = s.circularRadius ∧
      s'.shear = s.shear ∧ s'.diagnostics = none ∧
      (∀ g, Bare g s → Bare g s') := by
  obtain ⟨e, he⟩ : ∃ e : Nd K, e = cubeOf s.params.dy.data.length s.params.dx.data.length
    (2 * s.params.rf.data.length - 1) fun _ _ _ => (XF.nan : XF K) := ⟨_, rfl⟩
  refine ⟨{ s with
    diskRadius := fresh .diskRadius .eclipseDuration s.params e "viridis"
    inclination := fresh .inclination .degree s.params e "viridis"
    tilt := fresh .tilt .degree s.params e "viridis"
    fxMap := fresh .fxMap .none s.params e "viridis"
    fyMap := fresh .fyMap .none s.params e "viridis" }, ?_, ?_, rfl, rfl, rfl, rfl, hd, ?_⟩
  · unfold Shallot.initialise
    simp only [Meth.get_bind, emptyProp _ hg, Meth.lift_ok_bind, Meth.modify_bind, Meth.modify_apply, he]
  · unfold aheadOf
    simp only [ahead_none, he]
    rfl
  · intro g h
    exact ⟨h.params, ⟨rfl, rfl, h.params, rfl⟩, ⟨rfl, rfl, h.params, rfl⟩, ⟨rfl, rfl, h.params, rfl⟩,
      ⟨rfl, rfl, h.params, rfl⟩, ⟨rfl, rfl, h.params, rfl⟩, h.nothing⟩

/-- A build that goes on from row `y` succeeds if and only if the remaining cells can be done; the result
is what a build from the beginning gives. -/
theorem build_from (g : GridParams K) (hg : ShapedGrid g) (s : Shallot K) (hs : Helped s) (hb : Bare g s)
    (m : Cube → ℕ) (y : ℕ) (hy : y ≤ g.dy.data.length) (he : s = aheadOf s m y 0) :
    ((∀ i j, y ≤ i → i < g.dy.data.length → j < g.dx.data.length →
        Buildable g s.numFxfy.toInt.toNat i j) →
      ∃ dm, Shallot.build y s = (.ok (), { builtGrid g s.numFxfy none with diagnosticMap := dm })) ∧
    ((∃ i j, y ≤ i ∧ i < g.dy.data.length ∧ j < g.dx.data.length ∧
        ¬ Buildable g s.numFxfy.toInt.toNat i j) → ∃ e s', Shallot.build y s = (.error e, s')) := by
  obtain ⟨s1, m1, h1, h2, h3, h4, h5⟩ : ∃ (s1 : Shallot K) (m1 : Cube → ℕ),
      (if y = 0 then Shallot.initialise s else (Except.ok (), s)) = (.ok (), s1) ∧
      s1 = aheadOf s1 m1 y 0 ∧ s1.numFxfy = s.numFxfy ∧ Helped s1 ∧ Bare g s1 := by
    by_cases h0 : y = 0
    · subst h0
      obtain ⟨s1, q1, q2, q3, q4, q5, q6, q7, q8⟩ := initialise_any s hs.shaped hb.nothing.1
      exact ⟨s1, fun _ => 0, by rw [if_pos rfl, q1], q2, q3,
        ⟨by rw [q4]; exact hs.shaped, by rw [q5, q4]; exact hs.radius, by rw [q6, q4]; exact hs.shear⟩,
        q8 g hb⟩
    · exact ⟨s, m, by rw [if_neg h0], he, rfl, hs, hb⟩
  have hbuild : Shallot.build y s = (do Shallot.buildRows (g.dy.data.length - y) y
                                        Shallot.recolorAll : Meth (Shallot K) Unit) s1 := by
    have e1 : s1.params.sliceShape.1 = g.dy.data.length := by rw [h5.params, hg.slice]
    unfold Shallot.build
    by_cases h0 : y = 0
    · subst h0
      rw [if_pos rfl] at h1 ⊢
      rw [bind_ok _ _ _ _ () h1]
      simp only [Meth.get_bind, e1]
    · rw [if_neg h0] at h1 ⊢
      obtain rfl : s = s1 := by simpa using h1
      rw [← e1]
      rfl
  have hrows := buildRows_ahead s1 h4 h5.nothing.1 m1 (g.dy.data.length - y) y (by rw [h5.params]; omega)
  rw [← h2, h5.params, h3, show y + (g.dy.data.length - y) = g.dy.data.length by omega] at hrows
  rw [hbuild]
  constructor
  · intro hall
    rw [bind_ok _ _ _ _ () (hrows.1 hall)]
    obtain ⟨dm, h⟩ := recolor_ahead g s1 h4 h5 m1
    rw [h3] at h
    exact ⟨dm, h⟩
  · intro hne
    obtain ⟨e, s', h⟩ := hrows.2 hne
    rw [bind_err _ _ _ _ _ h]
    exact ⟨e, s', rfl⟩

theorem reread_toInt (v : PyVal K) (n : ℤ) (hv : IsInteger v n) (hb : ∀ b, v ≠ .bool b) :
    reread v = .npInt .w64 n ∧ (reread v).toInt = v.toInt := by
  cases hv with
  | false => exact absurd rfl (hb false)
  | true => exact absurd rfl (hb true)
  | int n => exact ⟨rfl, rfl⟩
  | npInt w n => exact ⟨rfl, rfl⟩

/-- The grid that has taken over the files. -/
theorem taken_over (g : GridParams K) (hg : ShapedGrid g) (v : PyVal K) (n : ℤ) (hv : IsInteger v n)
    (hb : ∀ b, v ≠ .bool b) (t : Shallot K) (ht : t.diagnostics = none ∧
      t.gradientFit = none ∧ t.eclipseDuration = none ∧ t.velocity = none ∧ t.limb = none)
    (m : Cube → ℕ) (y : ℕ) (H : Shallot K)
    (hH : H = Shallot.helpers (takeOver (aheadOf (emptyGrid g v none) m y 0) t)) :
    H.params = g ∧ H.numFxfy = reread v ∧ Helped H ∧ Bare g H ∧ H = aheadOf H m y 0 := by
  obtain ⟨-, hr2⟩ := reread_toInt v n hv hb
  have Hp : H.params = g := by rw [hH]; rfl
  have Hn : H.numFxfy = reread v := by rw [hH]; rfl
  refine ⟨Hp, Hn, ?_, ?_, ?_⟩
  · refine ⟨by rw [Hp]; exact hg, ?_, ?_⟩
    · rw [hH]; rfl
    · have e : H.shear = cubeOf H.params.sliceShape.1 H.params.sliceShape.2 1 fun y x _ =>
          Geometry.shear (H.params.dx.data.getD x .nan) (H.params.dy.data.getD y .nan) := by
        rw [hH]; rfl
      rw [e, Hp, hg.slice]
  · rw [hH]
    exact ⟨rfl, ⟨rfl, rfl, rfl, rfl⟩, ⟨rfl, rfl, rfl, rfl⟩, ⟨rfl, rfl, rfl, rfl⟩,
      ⟨rfl, rfl, rfl, rfl⟩, ⟨rfl, rfl, rfl, rfl⟩,
      ⟨ht.1, rfl, ht.2.1, ht.2.2.1, ht.2.2.2.1, ht.2.2.2.2⟩⟩
  · unfold aheadOf
    simp only
    rw [Hp, Hn, hr2, hH]
    rfl

/-- Reading such a directory either fails or gives what the build would have given. -/
theorem readInto_partial (g : GridParams K) (hg : ShapedGrid g) (hc : Consistent g)
    (hdy : g.dy.shape.headD 0 = g.dy.data.length) (v : PyVal K)
    (n : ℤ) (hv : IsInteger v n) (hb : ∀ b, v ≠ .bool b) (t : Shallot K) (ht : t.diagnostics = none ∧
      t.gradientFit = none ∧ t.eclipseDuration = none ∧ t.velocity = none ∧ t.limb = none)
    (d : Path) (fs fs' : FS K) (hp : Partial g v fun f => fs.at? (d ++ [f])) (s : Shallot K)
    (h : readInto d t fs = (.ok s, fs')) :
    (∀ i j, i < g.dy.data.length → j < g.dx.data.length → Buildable g v.toInt.toNat i j) ∧
    ∃ u, Shallot.finish (builtGrid g v none) = .ok u ∧ s = { u with numFxfy := reread v } := by
  unfold readInto at h
  cases hl : Shallot.loadAttributes fs d t with
  | error e => rw [hl] at h; cases h
  | ok s1 =>
    rw [hl] at h
    simp only at h
    unfold Shallot.resume at h
    rcases hp.row with ⟨-, h1⟩ | h1 | ⟨y, hy, h1, h2, h3⟩
    · obtain ⟨⟨x, hx⟩, -⟩ := loadAttributes_ok hl
      obtain ⟨b, hb⟩ := loadScalar_file hx
      rw [FS.load_none h1] at hb
      cases hb
    · have : fs.exists? (d ++ ["y_value.npy"]) = true := by unfold FS.exists?; rw [h1]; rfl
      rw [if_pos this] at h
      have hx : loadScalar fs (d ++ ["y_value.npy"]) = .error .valueError := by
        unfold loadScalar; rw [FS.load_torn h1]; rfl
      rw [hx] at h
      cases h
    · have : fs.exists? (d ++ ["y_value.npy"]) = true := by unfold FS.exists?; rw [h1]; rfl
      rw [if_pos this, loadScalar_int (.int (y : ℤ)) h1] at h
      obtain ⟨m, hm, hst⟩ := rest_stored hg hc h2 (readable_of hl)
      obtain ⟨S, hS⟩ : ∃ S, S = aheadOf (emptyGrid g v none) m y 0 := ⟨_, rfl⟩
      rw [← hS] at hst
      have hSn : S.numFxfy = v := by rw [hS]; rfl
      have hSp : S.params = g := by rw [hS]; rfl
      have hs1 := loadAttributes_stored hst n (by rw [hSn]; exact hv) t
      rw [hl] at hs1
      obtain rfl : s1 = takeOver S t := by
        split_ifs at hs1 with hx
        simpa using hs1
      obtain ⟨H, hH⟩ : ∃ H, H = Shallot.helpers (takeOver S t) := ⟨_, rfl⟩
      rw [← hH] at h
      obtain ⟨hr1, hr2⟩ := reread_toInt v n hv hb
      obtain ⟨Hp, Hn, Hs, Hb, He⟩ := taken_over g hg v n hv hb t ht m y H (by rw [hH, hS])
      have hnum : number (reread (.int (y : ℤ)) : PyVal K) (.bool true) (.int 0)
          (.int (H.params.dy.shape.headD 0 : ℕ)) = .ok (.npInt .w64 (y : ℤ)) := by
        rw [Hp, hdy]
        exact number_row y _ hy _ (.npInt .w64 y)
      simp only at h
      rw [hnum] at h
      simp only at h
      rw [show (PyVal.npInt (K := K) .w64 (y : ℤ)).toInt.toNat = y from Int.toNat_natCast y] at h
      have hbf := build_from g hg H Hs Hb m y hy He
      rw [Hn, hr2] at hbf
      unfold Shallot.buildIn at h
      cases hrun : fs.run (Shallot.trace true y H) with
      | mk r f =>
        rw [hrun] at h
        cases r with
        | error e => cases h
        | ok u0 =>
          simp only at h
          by_cases hall : ∀ i j, y ≤ i → i < g.dy.data.length → j < g.dx.data.length →
              Buildable g v.toInt.toNat i j
          · refine ⟨fun i j hi hj => ?_, ?_⟩
            · rcases Nat.lt_or_ge i y with hlt | hge
              · exact h3 i j hlt hj
              · exact hall i j hge hi hj
            · obtain ⟨dm, hbuild⟩ := hbf.1 hall
              rw [hbuild] at h
              simp only at h
              have e : ({ builtGrid g (reread v) none with diagnosticMap := dm } : Shallot K) =
                  { builtGrid g v none with numFxfy := reread v, diagnosticMap := dm } := by
                unfold builtGrid
                simp only [hr2]
              rw [e, finish_frame] at h
              cases hf : Shallot.finish (builtGrid g v none) with
              | error e => rw [hf] at h; cases h
              | ok u =>
                rw [hf] at h
                refine ⟨u, rfl, ?_⟩
                have := (Prod.mk.inj h).1
                simpa [Except.map] using this.symm
          · push Not at hall
            obtain ⟨e, s', hbuild⟩ := hbf.2 hall
            rw [hbuild] at h
            cases h

/-- A build that saves as it goes, if nothing interrupts it. -/
theorem newIn_saving (g : GridParams K) (hg : ShapedGrid g) (hc : Consistent g) (v k saving : PyVal K)
    (n : ℕ) (hn : Count v n) (hk : boolean k = .ok false) (hsv : boolean saving = .ok true)
    (hall : ∀ i j, i < g.dy.data.length → j < g.dx.data.length → Buildable g v.toInt.toNat i j)
    (fs : FS K) (hfs : Rooted fs) :
    ∃ fs', Shallot.newIn v k saving g fs = (Shallot.finish (builtGrid g v none), fs') := by
  have hnum : number v (.bool true) (.int 1) = .ok v := (number_count v v).2 ⟨rfl, n, hn⟩
  have htr := trace_new g hg v false
  rw [if_neg (by simp), ← rowsDone_zero] at htr
  obtain ⟨fs', hr⟩ := rows_run g hg hc v hall g.dy.data.length 0 _ (by omega) (mid_start g v fs hfs)
  have hrun : fs.run (Shallot.trace true 0 (Shallot.bare g v false)) = (.ok (), fs') := by
    rw [htr, (temp_new fs hfs _).1, hr]
  have hb := (C72_build g hg v false).1 (fun y x hy hx => hall y x hy hx)
  obtain ⟨dd, hb1, hb2⟩ := hb
  have hdd : dd = none := by
    cases dd with
    | none => rfl
    | some dd => exact absurd rfl hb2.1
  rw [hdd] at hb1
  refine ⟨fs', ?_⟩
  unfold Shallot.newIn
  rw [hnum]
  simp only
  rw [hk]
  simp only
  rw [hsv]
  simp only
  unfold Shallot.buildIn
  rw [hrun, hb1]

end

/-- **C63** A build with intermittent saving is interrupted after any number of file operations (but not
before it has removed what an earlier build has left), even in the middle of writing a file; the temporary
directory is copied somewhere else, and `load` is called on the copy.  If that gives a grid, it is the
grid that the build would have given without the interruption (and without the interruption the build does
give a grid); `num_fxfy` has become a numpy integer.

The copy is necessary, see `C64_false`; builds that keep diagnostics never succeed, see
`C65_false_build`. -/
theorem C63_resume (minX maxX numX minY maxY numY maxRf numRf : PyVal ℝ) (g : GridParams ℝ)
    (hg : GridParams.new minX maxX numX minY maxY numY maxRf numRf = .ok g) (v k saving : PyVal ℝ)
    (n : ℕ) (hn : Count v n) (hb : ∀ b, v ≠ .bool b) (hk : boolean k = .ok false)
    (hsv : boolean saving = .ok true) (fs : FS ℝ) (hfs : Rooted fs) (j : ℕ) (hj : 1 ≤ j) (tear : Bool)
    (fs₂ : FS ℝ) (hfs₂ : Rooted fs₂) (d : Path) (hd : d ≠ []) (hdt : ¬ tempDir <+: d)
    (hcopy : ∀ l, fs₂.at? (d ++ l) =
      (fs.crash (Shallot.trace true 0 (Shallot.bare g v false)) j tear).at? (tempDir ++ l))
    (s : Shallot ℝ) (fs₃ : FS ℝ) (h : Shallot.load d fs₂ = (.ok s, fs₃)) :
    ∃ u fs₄, Shallot.newIn v k saving g fs = (.ok u, fs₄) ∧ s = { u with numFxfy := .npInt .w64 n } := by
  have hs := shapedGrid_new _ _ _ _ _ _ _ _ _ hg
  have hc := new_consistent hg
  have hdy : g.dy.shape.headD 0 = g.dy.data.length := by
    obtain ⟨a, b, nx, c, d, ny, m, nr, -, -, -, rfl⟩ := (new_ok_iff ..).1 hg
    simp [gridOf, linspace_length]
  obtain ⟨t, t1, t2, t3, t4, t5, hload⟩ := load_start
  rw [hload] at h
  have hp := trace_crash g hs hc v fs hfs j hj tear
  have hp' : Partial g v fun f => (cleaned fs₂).at? (d ++ [f]) := by
    have e : (fun f => (cleaned fs₂).at? (d ++ [f])) = fun f =>
        (fs.crash (Shallot.trace true 0 (Shallot.bare g v false)) j tear).at? (tempDir ++ [f]) := by
      funext f
      rw [cleaned_at? fs₂ hfs₂, if_neg (not_temp hd hdt _), hcopy]
    rw [e]; exact hp
  obtain ⟨hall, u, hu, rfl⟩ := readInto_partial g hs hc hdy v n hn.2 hb t ⟨t1, t2, t3, t4, t5⟩ d _ _ hp' s h
  obtain ⟨fs₄, h4⟩ := newIn_saving g hs hc v k saving n hn hk hsv hall fs hfs
  rw [hu] at h4
  rw [(reread_toInt v n hn.2 hb).1]
  exact ⟨u, fs₄, h4, rfl⟩

end Beyonce
