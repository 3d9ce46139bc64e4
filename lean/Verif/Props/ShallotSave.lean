import Verif.ShallotFiles
import Verif.Props.GridGradient

/-!
# Properties C61, C65: saving a `ShallotGrid`
-/

set_option linter.unusedSectionVars false

namespace Beyonce
open Spec

section
variable {K : Type}

/-- A file system in which whatever exists lies in a directory that exists. -/
def Spec.Rooted (fs : FS K) : Prop :=
  ∀ (p : Path) (f : String) (n : Node K), fs.at? (p ++ [f]) = some n → fs.isDir p = true

theorem rooted_nil : Rooted ([] : FS K) := by
  intro p f n h; simp [FS.at?] at h

/-- Below a path that is no directory there is nothing. -/
theorem Spec.Rooted.below {fs : FS K} (h : Rooted fs) {d : Path} (hd : fs.isDir d = false) :
    ∀ (l : List String), l ≠ [] → fs.at? (d ++ l) = none := by
  intro l
  induction l using List.reverseRecOn with
  | nil => intro h; exact absurd rfl h
  | append_singleton l f ih =>
    intro _
    by_contra hc
    obtain ⟨n, hn⟩ := Option.ne_none_iff_exists'.1 hc
    rw [← List.append_assoc] at hn
    have := h _ _ _ hn
    by_cases hl : l = []
    · subst hl; rw [List.append_nil, hd] at this; cases this
    · rcases FS.isDir_iff.1 this with h' | h'
      · simp at h'; exact hl h'.2
      · rw [ih hl] at h'; cases h'

theorem Spec.Rooted.fresh {fs : FS K} (h : Rooted fs) {d : Path} (hd : d ≠ []) (hn : fs.at? d = none)
    (l : List String) : fs.at? (d ++ l) = none := by
  by_cases hl : l = []
  · subst hl; rwa [List.append_nil]
  · refine h.below ?_ l hl
    rw [Bool.eq_false_iff]
    intro hc
    rcases FS.isDir_iff.1 hc with h' | h'
    · exact hd h'
    · rw [hn] at h'; cases h'

theorem isDir_put {fs : FS K} {p q : Path} {n : Node K} (h : fs.isDir q = true)
    (hn : p = q → n = .dir) : (fs.put p n).isDir q = true := by
  rw [FS.isDir_iff] at h ⊢
  rcases h with h | h
  · exact Or.inl h
  · right
    rw [FS.at?_put]
    split_ifs with e
    · rw [hn e.symm]
    · exact h

theorem rooted_put_dir {fs : FS K} (h : Rooted fs) {p : Path} (hp : fs.isDir p.dropLast = true) :
    Rooted (fs.put p .dir) := by
  intro q f n hq
  rw [FS.at?_put] at hq
  refine isDir_put ?_ (fun _ => rfl)
  split_ifs at hq with e
  · rw [← e, List.dropLast_concat] at hp; exact hp
  · exact h _ _ _ hq

/-- Every step keeps a file system rooted. -/
theorem rooted_step {fs fs' : FS K} {s : Step K} (h : Rooted fs) (hs : fs.step s = .ok fs') :
    Rooted fs' := by
  have hmk : ∀ p, fs.mkdir p = .ok fs' → Rooted fs' := by
    intro p hp
    unfold FS.mkdir at hp
    split_ifs at hp with h1 h2
    cases hp
    exact rooted_put_dir h h2
  cases s with
  | mkdir p => exact hmk p hs
  | mkdirIfMissing p =>
    simp only [FS.step] at hs
    split_ifs at hs
    · cases hs; exact h
    · exact hmk p hs
  | write p b =>
    simp only [FS.step, FS.write] at hs
    split_ifs at hs with h1 h2
    cases hs
    intro q f n hq
    rw [FS.at?_put] at hq
    split_ifs at hq with e
    · subst e
      rw [List.dropLast_concat] at h1
      refine isDir_put h1 ?_
      intro e
      have := congrArg List.length e
      simp at this
    · have hd := h _ _ _ hq
      refine isDir_put hd ?_
      rintro rfl
      exact absurd hd h2
  | rmtreeIfExists d =>
    simp only [FS.step] at hs
    cases hs
    split_ifs with hd
    · intro q f n hq
      rw [FS.at?_rmtree] at hq
      split_ifs at hq with hpre
      have hdir := h _ _ _ hq
      rw [FS.isDir_iff] at hdir ⊢
      rcases hdir with hdir | hdir
      · exact Or.inl hdir
      · right
        rw [FS.at?_rmtree, if_neg]
        · exact hdir
        · exact fun hc => hpre (hc.trans (List.prefix_append _ _))
    · exact h
  | raise e => cases hs

/-- Every program keeps a file system rooted, also if it crashes. -/
theorem rooted_run (ss : List (Step K)) : ∀ {fs : FS K}, Rooted fs → Rooted (fs.run ss).2 := by
  induction ss with
  | nil => intro fs h; exact h
  | cons s ss ih =>
    intro fs h
    simp only [FS.run]
    cases hs : fs.step s with
    | error e => exact h
    | ok fs' => exact ih (rooted_step h hs)

theorem rooted_crash (ss : List (Step K)) (k : ℕ) (tear : Bool) {fs : FS K} (h : Rooted fs) :
    Rooted (fs.crash ss k tear) := by
  unfold FS.crash
  simp only
  split_ifs
  · split
    · exact rooted_run _ (rooted_run _ h)
    · exact rooted_run _ h
  · exact rooted_run _ h

/-! ## Blocks of steps in one directory -/

/-- Steps that only write files into `dir`, with names that satisfy `P`. -/
def FlatIn (P : String → Prop) (dir : Path) (ss : List (Step K)) : Prop :=
  ∀ s ∈ ss, s = .mkdirIfMissing dir ∨ ∃ f b, s = .write (dir ++ [f]) b ∧ P f

theorem FlatIn.append {P : String → Prop} {dir : Path} {ss ts : List (Step K)} (h : FlatIn P dir ss)
    (h' : FlatIn P dir ts) : FlatIn P dir (ss ++ ts) := by
  intro s hs
  rcases List.mem_append.1 hs with hs | hs
  · exact h s hs
  · exact h' s hs

theorem FlatIn.no_rmtree {P : String → Prop} {dir : Path} {ss : List (Step K)} (h : FlatIn P dir ss)
    (d : Path) : Step.rmtreeIfExists d ∉ ss := by
  intro hd
  rcases h _ hd with h | ⟨f, b, h, -⟩ <;> cases h

/-- Such steps succeed if the directory exists and the names are not those of directories.  They
keep all directories, and turn nothing into a directory. -/
theorem run_flat {P : String → Prop} {dir : Path} (ss : List (Step K)) : ∀ (fs : FS K),
    FlatIn P dir ss → fs.at? dir = some .dir → (∀ f, P f → fs.at? (dir ++ [f]) ≠ some .dir) →
    ∃ fs', fs.run ss = (.ok (), fs') ∧
      (∀ q, fs'.at? q = some .dir ↔ fs.at? q = some .dir) ∧
      (∀ q, (∀ f, P f → q ≠ dir ++ [f]) → fs'.at? q = fs.at? q) := by
  induction ss with
  | nil => intro fs _ _ _; exact ⟨fs, rfl, fun _ => Iff.rfl, fun _ _ => rfl⟩
  | cons s ss ih =>
    intro fs hflat hdir hnames
    have hflat' : FlatIn P dir ss := fun t ht => hflat t (List.mem_cons_of_mem _ ht)
    rcases hflat s List.mem_cons_self with rfl | ⟨f, b, rfl, hP⟩
    · simp only [FS.run, FS.step_mkdirIfMissing_exists hdir]
      exact ih fs hflat' hdir hnames
    · have hd : fs.isDir dir = true := FS.isDir_iff.2 (Or.inr hdir)
      simp only [FS.run, FS.step_write_ok b hd (hnames f hP)]
      have hq : ∀ q, (fs.put (dir ++ [f]) (.file b)).at? q = some .dir ↔ fs.at? q = some .dir := by
        intro q
        rw [FS.at?_put]
        split_ifs with e
        · subst e; simp [hnames f hP]
        · exact Iff.rfl
      obtain ⟨fs', h1, h2, h3⟩ := ih (fs.put (dir ++ [f]) (.file b)) hflat' ((hq _).2 hdir)
        (fun f' hf' hc => hnames f' hf' ((hq _).1 hc))
      refine ⟨fs', h1, fun q => (h2 q).trans (hq q), ?_⟩
      intro q hn
      rw [h3 q hn, FS.at?_put, if_neg (hn f hP)]

/-- After a successful run, a path that got one content only holds it. -/
theorem run_agree {q : Path} {b : Blob K} (ss : List (Step K)) : ∀ {fs fs' : FS K},
    (∀ d, Step.rmtreeIfExists d ∉ ss) → (∀ b', Step.write q b' ∈ ss → b' = b) →
    (fs.at? q = some (.file b) ∨ Step.write q b ∈ ss) → fs.run ss = (.ok (), fs') →
    fs'.at? q = some (.file b) := by
  induction ss with
  | nil =>
    intro fs fs' _ _ h hr
    cases hr
    simpa using h
  | cons s ss ih =>
    intro fs fs' hn hb h hr
    simp only [FS.run] at hr
    cases hs : fs.step s with
    | error e => rw [hs] at hr; cases hr
    | ok f =>
      rw [hs] at hr
      refine ih (fun d hd => hn d (List.mem_cons_of_mem _ hd))
        (fun b' hb' => hb b' (List.mem_cons_of_mem _ hb')) ?_ hr
      rcases h with h | h
      · left
        rcases FS.step_at? hs (fun d hd => hn d (hd ▸ List.mem_cons_self)) q with e | ⟨b', rfl, e⟩ | ⟨-, e, -⟩
        · rw [e, h]
        · rw [e, hb b' List.mem_cons_self]
        · rw [h] at e; cases e
      · rcases List.mem_cons.1 h with rfl | h
        · left
          simp only [FS.step, FS.write] at hs
          split_ifs at hs
          cases hs
          simp
        · exact Or.inr h

end

section
variable {K : Type} [Field K] [LinearOrder K]

/-! ## The steps of a save -/

/-- The names of the gradient directories begin with a `g`; the names of all files do not, and they
have an extension. -/
def PlainName (f : String) : Prop := f.toList.head? ≠ some 'g' ∧ hasExtension f = true

instance (f : String) : Decidable (PlainName f) := by unfold PlainName; infer_instance

theorem gradient_name (f : String) : ¬ PlainName ("gradient_" ++ f) := by
  unfold PlainName
  rw [String.toList_append, show "gradient_".toList = 'g' :: "radient_".toList by decide]
  simp

theorem plain_fileName (n : PropName) (u : PropUnit) :
    PlainName (GProp.fileName n u ++ ".npy") ∧ PlainName (GProp.fileName n u ++ "_mask.npy") := by
  cases n <;> cases u <;> decide

theorem flat_params (g : GridParams K) (dir : Path) : FlatIn PlainName dir (g.saveSteps dir) := by
  intro s hs
  simp only [GridParams.saveSteps, List.mem_cons, List.not_mem_nil, or_false] at hs
  rcases hs with rfl | rfl | rfl | rfl | rfl
  · exact Or.inl rfl
  all_goals exact Or.inr ⟨_, _, rfl, by decide⟩

theorem flat_prop (p : GProp K) (dir : Path) : FlatIn PlainName dir (p.saveSteps dir) := by
  unfold GProp.saveSteps
  refine FlatIn.append (FlatIn.append ?_ ?_) (flat_params _ _)
  · intro s hs
    simp only [List.mem_cons, List.not_mem_nil, or_false] at hs
    rcases hs with rfl | rfl
    · exact Or.inl rfl
    · exact Or.inr ⟨_, _, rfl, (plain_fileName _ _).1⟩
  · intro s hs
    cases hm : p.mask with
    | none => simp [hm] at hs
    | some m =>
      simp only [hm, List.mem_singleton] at hs
      exact Or.inr ⟨_, _, hs, (plain_fileName _ _).2⟩

/-- The part of a save that puts files into the directory itself. -/
def topSteps (s : Shallot K) (d : Path) (y : PyVal K) : List (Step K) :=
  s.yValueSteps d y ++
   .write (d ++ ["num_fxfy.npy"]) (GGrad.npArray [s.numFxfy]) ::
   (s.params.saveSteps d ++
    (s.diskRadius.saveSteps d ++
     (s.inclination.saveSteps d ++
      (s.tilt.saveSteps d ++
       (s.fxMap.saveSteps d ++ s.fyMap.saveSteps d)))))

/-- A row number that `save` accepts: none, or an integer from 0 to the number of rows. -/
def Spec.YRow (s : Shallot K) (y : PyVal K) : Prop :=
  y = .none ∨ number y (.bool true) (.int 0) (.int s.params.dy.data.length) = .ok y

theorem yValueSteps_ok (s : Shallot K) (d : Path) (y : PyVal K) (hn : y ≠ .none)
    (hy : number y (.bool true) (.int 0) (.int s.params.dy.data.length) = .ok y) :
    s.yValueSteps d y = [.write (d ++ ["y_value.npy"]) (GGrad.npArray [y])] := by
  unfold Shallot.yValueSteps
  cases y <;> first | exact absurd rfl hn | simp only [hy]

theorem flat_top (s : Shallot K) (d : Path) (y : PyVal K) (hy : YRow s y) :
    FlatIn PlainName d (topSteps s d y) := by
  unfold topSteps
  refine FlatIn.append ?_ ?_
  · intro t ht
    by_cases hn : y = .none
    · subst hn; simp [Shallot.yValueSteps] at ht
    · rw [yValueSteps_ok s d y hn (hy.resolve_left hn), List.mem_singleton] at ht
      exact Or.inr ⟨_, _, ht, by decide⟩
  · refine FlatIn.append (ss := [_]) ?_ ((flat_params _ _).append ((flat_prop _ _).append
      ((flat_prop _ _).append ((flat_prop _ _).append ((flat_prop _ _).append (flat_prop _ _))))))
    intro t ht
    rw [List.mem_singleton] at ht
    exact Or.inr ⟨_, _, ht, by decide⟩

variable [IsStrictOrderedRing K] [FloorRing K]

/-- The first step of a save. -/
def makeStep : DirArg → Step K
  | .temp => .mkdirIfMissing tempDir
  | .other p => .mkdir p

theorem save_eq (s : Shallot K) (dir : DirArg) (y : PyVal K) : s.saveSteps dir y =
    makeStep dir ::
    (topSteps s dir.path y ++ ((s.gradients.getD []).flatMap (fun g => g.saveSteps dir.path) ++
      if s.diagnostics.isSome then [Step.raise .typeError] else [])) := by
  unfold Shallot.saveSteps topSteps
  simp only [List.append_assoc, List.cons_append]
  cases dir <;> rfl

/-- The steps of a gradient. -/
theorem gradient_steps (g : GGrad K) (d : Path) (t : Step K) (ht : t ∈ g.saveSteps d) :
    t = .mkdirIfMissing (d ++ [g.dirName]) ∨ t ∈ g.prop.saveSteps (d ++ [g.dirName]) ∨
    t = .write (d ++ [g.dirName] ++ ["position.npy"]) (GGrad.npArray [g.position]) ∨
    t = .write (d ++ [g.dirName] ++ ["mask_values.npy"]) g.maskValues ∨
    t ∈ g.prop.params.saveSteps d := by
  unfold GGrad.saveSteps at ht
  cases hm : g.measured with
  | none =>
    simp only [hm, List.mem_cons, List.mem_append, List.not_mem_nil, or_false] at ht
    tauto
  | some m =>
    simp only [hm, List.mem_cons, List.mem_append, List.not_mem_nil, or_false] at ht
    tauto

/-- Which nodes can be where in the directory of a save. -/
structure Kinds (d : Path) (fs : FS K) : Prop where
  dir : fs.at? d = some .dir
  sub : ∀ f b, ¬ PlainName f → fs.at? (d ++ [f]) ≠ some (.file b)
  top : ∀ f, PlainName f → fs.at? (d ++ [f]) ≠ some .dir
  deep : ∀ f f', fs.at? (d ++ [f] ++ [f']) ≠ some .dir

theorem kinds_top {d : Path} {fs : FS K} (h : Kinds d fs) (ss : List (Step K))
    (hs : FlatIn PlainName d ss) : ∃ fs', fs.run ss = (.ok (), fs') ∧ Kinds d fs' := by
  obtain ⟨fs', h1, h2, h3⟩ := run_flat ss fs hs h.dir h.top
  refine ⟨fs', h1, (h2 _).2 h.dir, ?_, fun f hf hc => h.top f hf ((h2 _).1 hc),
    fun f f' hc => h.deep f f' ((h2 _).1 hc)⟩
  intro f b hf
  rw [h3 _ (fun f' hf' e => hf (by
    have : f = f' := by simpa using e
    rw [this]; exact hf'))]
  exact h.sub f b hf

theorem kinds_gradient {d : Path} {fs : FS K} (h : Kinds d fs) (g : GGrad K) :
    ∃ fs', fs.run (g.saveSteps d) = (.ok (), fs') ∧ Kinds d fs' := by
  have hname : ¬ PlainName g.dirName := gradient_name _
  obtain ⟨f, hf⟩ : ∃ f, f = g.dirName := ⟨_, rfl⟩
  rw [← hf] at hname
  -- the directory
  obtain ⟨fs1, h1, k1, d1⟩ : ∃ fs1, fs.step (.mkdirIfMissing (d ++ [f])) = .ok fs1 ∧ Kinds d fs1 ∧
      fs1.at? (d ++ [f]) = some .dir := by
    cases hn : fs.at? (d ++ [f]) with
    | some n =>
      cases n with
      | dir => exact ⟨fs, FS.step_mkdirIfMissing_exists hn, h, hn⟩
      | file b => exact absurd hn (h.sub f b hname)
    | none =>
      refine ⟨fs.put (d ++ [f]) .dir, FS.step_mkdirIfMissing_ok hn (by
        rw [List.dropLast_concat]; exact FS.isDir_iff.2 (Or.inr h.dir)), ⟨?_, ?_, ?_, ?_⟩, by simp⟩
      · rw [FS.at?_put, if_neg (by simp), h.dir]
      · intro f' b hf'
        rw [FS.at?_put]
        split_ifs
        · simp
        · exact h.sub f' b hf'
      · intro f' hf'
        rw [FS.at?_put, if_neg]
        · exact h.top f' hf'
        · intro e
          have : f' = f := by simpa using e
          exact hname (this ▸ hf')
      · intro f' f''
        rw [FS.at?_put, if_neg (by
          intro e
          have := congrArg List.length e
          simp at this)]
        exact h.deep f' f''
  -- its files
  obtain ⟨ss, hss⟩ : ∃ ss, ss = g.prop.saveSteps (d ++ [f]) ++
      ([Step.write (d ++ [f] ++ ["position.npy"]) (GGrad.npArray [g.position])] ++
      (match g.measured with
        | some _ => [Step.write (d ++ [f] ++ ["mask_values.npy"]) g.maskValues]
        | none => [])) := ⟨_, rfl⟩
  have hflat : FlatIn (fun _ => True) (d ++ [f]) ss := by
    rw [hss]
    refine FlatIn.append ?_ (FlatIn.append ?_ ?_)
    · intro t ht
      rcases flat_prop _ _ t ht with h | ⟨a, b, h, -⟩
      · exact Or.inl h
      · exact Or.inr ⟨a, b, h, trivial⟩
    · intro t ht
      rw [List.mem_singleton] at ht
      exact Or.inr ⟨_, _, ht, trivial⟩
    · intro t ht
      cases hm : g.measured with
      | none => simp [hm] at ht
      | some m =>
        simp only [hm, List.mem_singleton] at ht
        exact Or.inr ⟨_, _, ht, trivial⟩
  obtain ⟨fs2, h2, h2d, h2f⟩ := run_flat ss fs1 hflat d1 (fun f' _ => k1.deep f f')
  have k2 : Kinds d fs2 := by
    have hfr : ∀ f', fs2.at? (d ++ [f']) = fs1.at? (d ++ [f']) := by
      intro f'
      refine h2f _ ?_
      intro f'' _ e
      have := congrArg List.length e
      simp at this
    refine ⟨(h2d _).2 k1.dir, ?_, ?_, fun f' f'' hc => k1.deep f' f'' ((h2d _).1 hc)⟩
    · intro f' b hf'; rw [hfr]; exact k1.sub f' b hf'
    · intro f' hf'; rw [hfr]; exact k1.top f' hf'
  obtain ⟨fs3, h3, k3⟩ := kinds_top k2 _ (flat_params g.prop.params d)
  refine ⟨fs3, ?_, k3⟩
  have hsteps : g.saveSteps d = Step.mkdirIfMissing (d ++ [f]) :: (ss ++ g.prop.params.saveSteps d) := by
    rw [hss, hf]
    unfold GGrad.saveSteps
    simp only [List.append_assoc, List.cons_append, List.nil_append]
    cases g.measured <;> rfl
  rw [hsteps, FS.run, h1]
  simp only
  rw [FS.run_append, h2]
  exact h3

theorem kinds_gradients {d : Path} (gs : List (GGrad K)) : ∀ {fs : FS K}, Kinds d fs →
    ∃ fs', fs.run (gs.flatMap fun g => g.saveSteps d) = (.ok (), fs') ∧ Kinds d fs' := by
  induction gs with
  | nil => intro fs h; exact ⟨fs, rfl, h⟩
  | cons g gs ih =>
    intro fs h
    obtain ⟨fs1, h1, k1⟩ := kinds_gradient h g
    obtain ⟨fs2, h2, k2⟩ := ih k1
    refine ⟨fs2, ?_, k2⟩
    rw [List.flatMap_cons, FS.run_append, h1]
    exact h2

/-- A new directory. -/
theorem kinds_new {d : Path} {fs : FS K} (h : Rooted fs) (hd : d ≠ []) (hn : fs.at? d = none) :
    Kinds d (fs.put d .dir) := by
  have hb := h.fresh hd hn
  refine ⟨by simp, ?_, ?_, ?_⟩
  · intro f b _
    rw [FS.at?_put, if_neg (by simp), hb]; simp
  · intro f _
    rw [FS.at?_put, if_neg (by simp), hb]; simp
  · intro f f'
    rw [FS.at?_put, if_neg (by simp), List.append_assoc, hb]; simp

/-! ## C61 -/

/-- **C61** Saving to a path that exists raises `FileExistsError` and changes no file. -/
theorem C61_existing (fs : FS K) (s : Shallot K) (p : Path) (y : PyVal K)
    (h : fs.exists? p = true) : fs.run (s.saveSteps (.other p) y) = (.error .fileExistsError, fs) := by
  rw [save_eq, FS.run]
  simp only [makeStep, FS.step, FS.mkdir, h, if_true]

/-- No step of a save removes anything. -/
theorem save_no_rmtree (s : Shallot K) (dir : DirArg) (y : PyVal K) (q : Path) :
    Step.rmtreeIfExists q ∉ s.saveSteps dir y := by
  rw [save_eq]
  intro h
  simp only [List.mem_cons, List.mem_append, topSteps, List.mem_flatMap] at h
  rcases h with h | (h | h | h | h | h | h | h | h) | ⟨g, -, h⟩ | h
  · cases dir <;> cases h
  · unfold Shallot.yValueSteps at h
    split at h
    · cases h
    · split at h <;> simp at h
  · cases h
  · exact saveSteps_no_rmtree _ _ _ h
  all_goals first
    | exact prop_no_rmtree _ _ _ h
    | skip
  · rcases gradient_steps _ _ _ h with h | h | h | h | h
    · cases h
    · exact prop_no_rmtree _ _ _ h
    · cases h
    · cases h
    · exact saveSteps_no_rmtree _ _ _ h
  · split_ifs at h <;> simp at h

/-- A save works only at and below its directory. -/
theorem flat_paths {P : String → Prop} {dir : Path} {ss : List (Step K)} (h : FlatIn P dir ss)
    (q : Path) : (∀ b, Step.write q b ∈ ss → ∃ f, q = dir ++ [f]) ∧
      (Step.mkdir q ∉ ss) ∧ (Step.mkdirIfMissing q ∈ ss → q = dir) := by
  refine ⟨?_, ?_, ?_⟩
  · intro b hb
    rcases h _ hb with h | ⟨f, b', h, -⟩ <;> cases h
    exact ⟨f, rfl⟩
  · intro hb
    rcases h _ hb with h | ⟨f, b', h, -⟩ <;> cases h
  · intro hb
    rcases h _ hb with h | ⟨f, b', h, -⟩ <;> cases h
    rfl

theorem save_paths (s : Shallot K) (dir : DirArg) (y : PyVal K) (q : Path) :
    ((∃ b, Step.write q b ∈ s.saveSteps dir y) ∨ Step.mkdir q ∈ s.saveSteps dir y ∨
      Step.mkdirIfMissing q ∈ s.saveSteps dir y) → dir.path <+: q := by
  have hflat : ∀ (P : String → Prop) (ss : List (Step K)) (d : Path), FlatIn P d ss →
      dir.path <+: d → (∃ b, Step.write q b ∈ ss) ∨ Step.mkdir q ∈ ss ∨ Step.mkdirIfMissing q ∈ ss →
      dir.path <+: q := by
    rintro P ss d h hd (⟨b, hb⟩ | hb | hb)
    · obtain ⟨f, rfl⟩ := (flat_paths h q).1 b hb
      exact hd.trans (List.prefix_append _ _)
    · exact absurd hb (flat_paths h q).2.1
    · rw [(flat_paths h q).2.2 hb]; exact hd
  have hpar := fun g : GridParams K => hflat _ _ _ (flat_params g dir.path) (List.prefix_refl _)
  have hprop := fun g : GProp K => hflat _ _ _ (flat_prop g dir.path) (List.prefix_refl _)
  rw [save_eq]
  simp only [List.mem_cons, List.mem_append, topSteps, List.mem_flatMap]
  -- one step at a time
  have key : ∀ t : Step K, (t = makeStep dir ∨ (t ∈ s.yValueSteps dir.path y ∨
      t = .write (dir.path ++ ["num_fxfy.npy"]) (GGrad.npArray [s.numFxfy]) ∨
      t ∈ s.params.saveSteps dir.path ∨ t ∈ s.diskRadius.saveSteps dir.path ∨
      t ∈ s.inclination.saveSteps dir.path ∨ t ∈ s.tilt.saveSteps dir.path ∨
      t ∈ s.fxMap.saveSteps dir.path ∨ t ∈ s.fyMap.saveSteps dir.path) ∨
      (∃ g ∈ s.gradients.getD [], t ∈ g.saveSteps dir.path) ∨
      t ∈ (if s.diagnostics.isSome = true then [Step.raise .typeError] else [])) →
      ((∃ b, t = .write q b) ∨ t = .mkdir q ∨ t = .mkdirIfMissing q) → dir.path <+: q := by
    intro t ht hq
    have hin : ∀ ss : List (Step K), t ∈ ss →
        (∃ b, Step.write q b ∈ ss) ∨ Step.mkdir q ∈ ss ∨ Step.mkdirIfMissing q ∈ ss := by
      intro ss hs
      rcases hq with ⟨b, rfl⟩ | rfl | rfl
      · exact Or.inl ⟨b, hs⟩
      · exact Or.inr (Or.inl hs)
      · exact Or.inr (Or.inr hs)
    rcases ht with rfl | (h | rfl | h | h | h | h | h | h) | ⟨g, -, h⟩ | h
    · cases dir <;> rcases hq with ⟨b, hq⟩ | hq | hq <;> cases hq <;> exact List.prefix_refl _
    · unfold Shallot.yValueSteps at h
      split at h
      · cases h
      · split at h
        · rw [List.mem_singleton] at h
          subst h
          rcases hq with ⟨b, hq⟩ | hq | hq <;> cases hq
          exact List.prefix_append _ _
        · rw [List.mem_singleton] at h
          subst h
          rcases hq with ⟨b, hq⟩ | hq | hq <;> cases hq
    · rcases hq with ⟨b, hq⟩ | hq | hq <;> cases hq
      exact List.prefix_append _ _
    · exact hpar _ (hin _ h)
    · exact hprop _ (hin _ h)
    · exact hprop _ (hin _ h)
    · exact hprop _ (hin _ h)
    · exact hprop _ (hin _ h)
    · exact hprop _ (hin _ h)
    · rcases gradient_steps _ _ _ h with h | h | h | h | h
      · subst h
        rcases hq with ⟨b, hq⟩ | hq | hq <;> cases hq
        exact List.prefix_append _ _
      · exact hflat _ _ _ (flat_prop _ _) (List.prefix_append _ _) (hin _ h)
      · subst h
        rcases hq with ⟨b, hq⟩ | hq | hq <;> cases hq
        exact (List.prefix_append _ _).trans (List.prefix_append _ _)
      · subst h
        rcases hq with ⟨b, hq⟩ | hq | hq <;> cases hq
        exact (List.prefix_append _ _).trans (List.prefix_append _ _)
      · exact hpar _ (hin _ h)
    · split_ifs at h
      · rw [List.mem_singleton] at h
        subst h
        rcases hq with ⟨b, hq⟩ | hq | hq <;> cases hq
      · simp at h
  rintro (⟨b, hb⟩ | hb | hb)
  · exact key _ hb (Or.inl ⟨b, rfl⟩)
  · exact key _ hb (Or.inr (Or.inl rfl))
  · exact key _ hb (Or.inr (Or.inr rfl))

/-- **C61** Nothing that exists is changed by a save to a path other than the temporary directory:
not if it succeeds, not if it raises, not if it crashes at any point. -/
theorem C61_nothing_changes (fs : FS K) (hfs : Rooted fs) (s : Shallot K) (p : Path) (hp : p ≠ [])
    (y : PyVal K) (q : Path) (n : Node K) (h : fs.at? q = some n) :
    (fs.run (s.saveSteps (.other p) y)).2.at? q = some n ∧
    ∀ k tear, (fs.crash (s.saveSteps (.other p) y) k tear).at? q = some n := by
  have hno : ∀ d, Step.rmtreeIfExists d ∉ s.saveSteps (.other p) y := save_no_rmtree s _ y
  by_cases hex : fs.at? p = none
  · have hnot : ¬ p <+: q := by
      rintro ⟨l, rfl⟩
      rw [hfs.fresh hp hex] at h
      cases h
    have hw : ∀ b, Step.write q b ∉ s.saveSteps (.other p) y := fun b hb =>
      hnot (save_paths s (.other p) y q (Or.inl ⟨b, hb⟩))
    refine ⟨FS.run_frame_some fs _ hno q hw h, ?_⟩
    intro k tear
    rcases crash_at? fs _ hno k tear q with h' | ⟨b, hb, -⟩ | ⟨b, hb, -⟩ | ⟨-, h'⟩
    · rw [h', h]
    · exact absurd hb (hw b)
    · exact absurd hb (hw b)
    · rw [h] at h'; cases h'
  · have hex' : fs.exists? p = true := by
      obtain ⟨m, hm⟩ := Option.ne_none_iff_exists'.1 hex
      simp [FS.exists?, hm]
    refine ⟨by rw [C61_existing fs s p y hex']; exact h, ?_⟩
    intro k tear
    have htake : (fs.run ((s.saveSteps (.other p) y).take k)).2 = fs ∧
        (tear = true → (fs.run ((s.saveSteps (.other p) y).take k)).1.isOk = true → k = 0) := by
      rw [save_eq]
      cases k with
      | zero => exact ⟨rfl, fun _ _ => rfl⟩
      | succ k =>
        rw [List.take_succ_cons, FS.run]
        simp only [makeStep, FS.step, FS.mkdir, hex', if_true]
        exact ⟨trivial, fun _ h => by cases h⟩
    unfold FS.crash
    simp only
    split_ifs with ht
    · rw [Bool.and_eq_true] at ht
      have hk := htake.2 ht.1 ht.2
      subst hk
      rw [save_eq]
      exact h
    · rw [htake.1]; exact h

/-! ## C65 -/

/-- What a save to a new directory does. -/
theorem save_fresh (fs : FS K) (hfs : Rooted fs) (s : Shallot K) (p : Path) (hp : p ≠ [])
    (hn : fs.at? p = none) (hd : fs.isDir p.dropLast = true) (y : PyVal K) (hy : YRow s y) :
    ∃ fs', fs.run (({ s with diagnostics := none } : Shallot K).saveSteps (.other p) y) = (.ok (), fs') ∧
      Kinds p fs' ∧ fs.run (s.saveSteps (.other p) y) =
        (if s.diagnostics.isSome then .error .typeError else .ok (), fs') := by
  have hmk : fs.step (.mkdir p) = .ok (fs.put p .dir) := by
    simp [FS.step, FS.mkdir, FS.exists?, hn, hd]
  obtain ⟨f1, h1, k1⟩ := kinds_top (kinds_new hfs hp hn) _ (flat_top s p y hy)
  obtain ⟨f2, h2, k2⟩ := kinds_gradients (s.gradients.getD []) k1
  have hall : ∀ ts : List (Step K), fs.run (Step.mkdir p :: (topSteps s p y ++
      ((s.gradients.getD []).flatMap (fun g => g.saveSteps p) ++ ts))) = f2.run ts := by
    intro ts
    rw [FS.run, hmk]
    simp only
    rw [FS.run_append, h1]
    simp only
    rw [FS.run_append, h2]
  refine ⟨f2, ?_, k2, ?_⟩
  · rw [save_eq]
    exact hall []
  · rw [save_eq]
    refine (hall _).trans ?_
    split_ifs <;> rfl

/-- **C65** Without diagnostics a save to a new directory succeeds. -/
theorem C65_without_partial (fs : FS K) (hfs : Rooted fs) (s : Shallot K) (hs : s.diagnostics = none)
    (p : Path) (hp : p ≠ []) (hn : fs.at? p = none) (hd : fs.isDir p.dropLast = true) (y : PyVal K)
    (hy : YRow s y) : ∃ fs', fs.run (s.saveSteps (.other p) y) = (.ok (), fs') := by
  obtain ⟨fs', -, -, h⟩ := save_fresh fs hfs s p hp hn hd y hy
  rw [hs] at h
  exact ⟨fs', h⟩

/-- **C65 is false**: with diagnostics it raises `TypeError`, after all other files were written. -/
theorem C65_false (fs : FS K) (hfs : Rooted fs) (s : Shallot K) (hs : s.diagnostics ≠ none)
    (p : Path) (hp : p ≠ []) (hn : fs.at? p = none) (hd : fs.isDir p.dropLast = true) (y : PyVal K)
    (hy : YRow s y) : ∃ fs',
    fs.run (s.saveSteps (.other p) y) = (.error .typeError, fs') ∧
    fs.run (({ s with diagnostics := none } : Shallot K).saveSteps (.other p) y) = (.ok (), fs') := by
  obtain ⟨fs', h', -, h⟩ := save_fresh fs hfs s p hp hn hd y hy
  obtain ⟨d, hd⟩ := Option.ne_none_iff_exists'.1 hs
  rw [hd] at h
  exact ⟨fs', h, h'⟩

/-- **C65** No save of a grid with diagnostics succeeds, wherever it goes to. -/
theorem C65_never (fs : FS K) (s : Shallot K) (hs : s.diagnostics ≠ none) (dir : DirArg)
    (y : PyVal K) : ∃ e, (fs.run (s.saveSteps dir y)).1 = .error e := by
  obtain ⟨d, hd⟩ := Option.ne_none_iff_exists'.1 hs
  cases h : fs.run (s.saveSteps dir y) with
  | mk r fs' =>
    cases r with
    | error e => exact ⟨e, rfl⟩
    | ok u =>
      exfalso
      rw [save_eq, hd] at h
      obtain ⟨f1, -, h1⟩ := FS.run_append_ok (ss := [_]) h
      obtain ⟨f2, -, h2⟩ := FS.run_append_ok h1
      obtain ⟨f3, -, h3⟩ := FS.run_append_ok h2
      cases h3

end
end Beyonce
