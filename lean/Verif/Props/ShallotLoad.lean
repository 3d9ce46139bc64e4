import Verif.Props.ShallotSave
import Verif.Props.Complete

/-!
# Properties C62, C64: loading a `ShallotGrid`
-/

set_option linter.unusedSectionVars false

namespace Beyonce
open Spec

section
variable {K : Type}

theorem at?_ne_none (fs : FS K) (p : Path) : fs.at? p ≠ none ↔ ∃ e ∈ fs, e.1 = p := by
  unfold FS.at?
  induction fs with
  | nil => simp
  | cons e fs ih =>
    rw [List.lookup_cons]
    by_cases h : p = e.1
    · subst h; simp
    · have h' : (p == e.1) = false := by simpa using h
      rw [h']
      simp only [ih, List.mem_cons, exists_eq_or_imp]
      constructor
      · exact Or.inr
      · rintro (h'' | h'')
        · exact absurd h''.symm h
        · exact h''

/-- `os.listdir` gives the names of what is in the directory. -/
theorem mem_listdir (fs : FS K) (d : Path) (f : String) :
    f ∈ fs.listdir d ↔ fs.at? (d ++ [f]) ≠ none := by
  rw [at?_ne_none]
  unfold FS.listdir
  rw [List.mem_eraseDups, List.mem_filterMap]
  constructor
  · rintro ⟨e, he, h⟩
    refine ⟨e, he, ?_⟩
    cases hl : e.1.getLast? with
    | none => simp [hl] at h
    | some g =>
      simp only [hl] at h
      split_ifs at h with hd
      cases h
      rw [← hd]
      exact (List.dropLast_append_getLast? _ hl).symm
  · rintro ⟨e, he, h⟩
    exact ⟨e, he, by simp [h]⟩

end

section
variable {K : Type} [Field K] [LinearOrder K]

/-! ## The files of a save -/

/-- The files of grid parameters. -/
def gridFiles (g : GridParams K) : List (String × Blob K) :=
  [("dx.npy", .floats g.dx.shape g.dx.data), ("dy.npy", .floats g.dy.shape g.dy.data),
   ("rf.npy", .floats g.rf.shape g.rf.data),
   ("rf_array.npy", .floats g.rfArray.shape g.rfArray.data)]

/-- The files of a property, without those of its parameters. -/
def propFiles (p : GProp K) : List (String × Blob K) :=
  (GProp.fileName p.name p.unit ++ ".npy", .floats p.data.shape p.data.data) ::
  match p.mask with
  | some m => [(GProp.fileName p.name p.unit ++ "_mask.npy", .bools m.shape m.data)]
  | none => []

theorem mem_params_steps (g : GridParams K) (d : Path) (f : String) (b : Blob K) :
    Step.write (d ++ [f]) b ∈ g.saveSteps d ↔ (f, b) ∈ gridFiles g := by
  simp [GridParams.saveSteps, gridFiles]

theorem mem_prop_steps (p : GProp K) (d : Path) (f : String) (b : Blob K) :
    Step.write (d ++ [f]) b ∈ p.saveSteps d ↔ (f, b) ∈ propFiles p ∨ (f, b) ∈ gridFiles p.params := by
  unfold GProp.saveSteps propFiles
  cases hm : p.mask <;> simp only [List.mem_append, List.mem_cons, mem_params_steps] <;> simp

/-- The five cubes of a grid. -/
def Spec.five (s : Shallot K) : List (GProp K) :=
  [s.diskRadius, s.inclination, s.tilt, s.fxMap, s.fyMap]

/-- The file of the row number. -/
def rowFile (y : PyVal K) : List (String × Blob K) :=
  if y = .none then [] else [("y_value.npy", GGrad.npArray [y])]

/-- The files that a save puts into the directory itself. -/
def topFiles (s : Shallot K) (y : PyVal K) : List (String × Blob K) :=
  rowFile y ++ ("num_fxfy.npy", GGrad.npArray [s.numFxfy]) ::
    (gridFiles s.params ++ (five s).flatMap propFiles)

/-- A grid whose parts belong together: names and units of the cubes, one parameters object. -/
structure Spec.Tidy (s : Shallot K) : Prop where
  consistent : Consistent s.params
  diskRadius : s.diskRadius.name = .diskRadius ∧ s.diskRadius.unit = .eclipseDuration
  inclination : s.inclination.name = .inclination ∧ s.inclination.unit = .degree
  tilt : s.tilt.name = .tilt ∧ s.tilt.unit = .degree
  fxMap : s.fxMap.name = .fxMap ∧ s.fxMap.unit = .none
  fyMap : s.fyMap.name = .fyMap ∧ s.fyMap.unit = .none
  cubes : ∀ p ∈ five s, p.params = s.params ∧
    p.data.shape = [s.params.gridShape.1, s.params.gridShape.2.1, s.params.gridShape.2.2]
  gradients : ∀ g ∈ s.gradients.getD [], g.prop.params = s.params

variable [IsStrictOrderedRing K] [FloorRing K]

theorem mem_top_steps (s : Shallot K) (hs : Tidy s) (d : Path) (y : PyVal K) (hy : YRow s y)
    (f : String) (b : Blob K) :
    Step.write (d ++ [f]) b ∈ topSteps s d y ↔ (f, b) ∈ topFiles s y := by
  have hrow : Step.write (d ++ [f]) b ∈ s.yValueSteps d y ↔ (f, b) ∈ rowFile y := by
    unfold rowFile
    by_cases hn : y = .none
    · subst hn; simp [Shallot.yValueSteps]
    · rw [yValueSteps_ok s d y hn (hy.resolve_left hn), if_neg hn]; simp
  have hc := hs.cubes
  have h1 := (hc s.diskRadius (by simp [five])).1
  have h2 := (hc s.inclination (by simp [five])).1
  have h3 := (hc s.tilt (by simp [five])).1
  have h4 := (hc s.fxMap (by simp [five])).1
  have h5 := (hc s.fyMap (by simp [five])).1
  unfold topSteps topFiles
  simp only [List.mem_append, List.mem_cons, mem_params_steps, mem_prop_steps, h1, h2, h3, h4, h5,
    hrow, five, List.flatMap_cons, List.flatMap_nil, List.not_mem_nil, or_false, Step.write.injEq,
    List.append_cancel_left_eq, List.cons.injEq, and_true, Prod.mk.injEq]
  tauto

theorem deep_ne {d : Path} {g f f' : String} : d ++ [f] ≠ d ++ [g] ++ [f'] := by
  intro e
  have := congrArg List.length e
  simp at this

theorem mem_save_steps (s : Shallot K) (hs : Tidy s) (dir : DirArg) (y : PyVal K) (hy : YRow s y)
    (f : String) (b : Blob K) :
    Step.write (dir.path ++ [f]) b ∈ s.saveSteps dir y ↔ (f, b) ∈ topFiles s y := by
  rw [save_eq]
  simp only [List.mem_cons, List.mem_append, mem_top_steps s hs _ y hy, List.mem_flatMap]
  constructor
  · rintro (h | h | ⟨g, hg, h⟩ | h)
    · cases dir <;> cases h
    · exact h
    · rcases gradient_steps _ _ _ h with h | h | h | h | h
      · cases h
      · obtain ⟨f', e⟩ := (flat_paths (flat_prop _ _) _).1 b h
        exact absurd e deep_ne
      · simp only [Step.write.injEq] at h
        exact absurd h.1 deep_ne
      · simp only [Step.write.injEq] at h
        exact absurd h.1 deep_ne
      · rw [hs.gradients g hg, mem_params_steps] at h
        unfold topFiles
        simp [h]
    · split_ifs at h <;> simp at h
  · exact fun h => Or.inr (Or.inl h)

/-- All names that can occur. -/
def allNames : List String :=
  ["y_value.npy", "num_fxfy.npy", "dx.npy", "dy.npy", "rf.npy", "rf_array.npy",
   "DISK_RADIUS_ECLIPSE_DURATION.npy", "DISK_RADIUS_ECLIPSE_DURATION_mask.npy",
   "INCLINATION_DEGREE.npy", "INCLINATION_DEGREE_mask.npy", "TILT_DEGREE.npy",
   "TILT_DEGREE_mask.npy", "FX_MAP_NONE.npy", "FX_MAP_NONE_mask.npy", "FY_MAP_NONE.npy",
   "FY_MAP_NONE_mask.npy"]

theorem propFiles_names (p : GProp K) (name : PropName) (unit : PropUnit)
    (h : p.name = name ∧ p.unit = unit) :
    List.Sublist ((propFiles p).map Prod.fst)
      [GProp.fileName name unit ++ ".npy", GProp.fileName name unit ++ "_mask.npy"] := by
  unfold propFiles
  rw [h.1, h.2]
  cases p.mask <;> simp

theorem topFiles_names (s : Shallot K) (hs : Tidy s) (y : PyVal K) :
    List.Sublist ((topFiles s y).map Prod.fst) allNames := by
  have h1 := propFiles_names _ _ _ hs.diskRadius
  have h2 := propFiles_names _ _ _ hs.inclination
  have h3 := propFiles_names _ _ _ hs.tilt
  have h4 := propFiles_names _ _ _ hs.fxMap
  have h5 := propFiles_names _ _ _ hs.fyMap
  have h0 : List.Sublist ((rowFile y).map Prod.fst) ["y_value.npy"] := by
    unfold rowFile; split_ifs <;> simp
  have hall := h0.append (List.Sublist.append (List.Sublist.refl (("num_fxfy.npy", GGrad.npArray
    [s.numFxfy]) :: gridFiles s.params |>.map Prod.fst))
    (h1.append (h2.append (h3.append (h4.append h5)))))
  have e : (topFiles s y).map Prod.fst = (rowFile y).map Prod.fst ++
      ((("num_fxfy.npy", GGrad.npArray [s.numFxfy]) :: gridFiles s.params).map Prod.fst ++
        ((propFiles s.diskRadius).map Prod.fst ++ ((propFiles s.inclination).map Prod.fst ++
          ((propFiles s.tilt).map Prod.fst ++ ((propFiles s.fxMap).map Prod.fst ++
            (propFiles s.fyMap).map Prod.fst))))) := by
    simp [topFiles, five]
  rw [e]
  exact hall

/-- The names that do occur. -/
def namesOf (row a b c x y : Bool) : List String :=
  (if row then ["y_value.npy"] else []) ++
  (["num_fxfy.npy", "dx.npy", "dy.npy", "rf.npy", "rf_array.npy"] ++
  ("DISK_RADIUS_ECLIPSE_DURATION.npy" ::
    ((if a then ["DISK_RADIUS_ECLIPSE_DURATION_mask.npy"] else []) ++
  ("INCLINATION_DEGREE.npy" :: ((if b then ["INCLINATION_DEGREE_mask.npy"] else []) ++
  ("TILT_DEGREE.npy" :: ((if c then ["TILT_DEGREE_mask.npy"] else []) ++
  ("FX_MAP_NONE.npy" :: ((if x then ["FX_MAP_NONE_mask.npy"] else []) ++
  ("FY_MAP_NONE.npy" :: (if y then ["FY_MAP_NONE_mask.npy"] else [])))))))))))

theorem topFiles_namesOf (s : Shallot K) (hs : Tidy s) (y : PyVal K) (row : Bool)
    (hr : (rowFile y).map Prod.fst = if row then ["y_value.npy"] else []) :
    (topFiles s y).map Prod.fst = namesOf row s.diskRadius.mask.isSome
      s.inclination.mask.isSome s.tilt.mask.isSome s.fxMap.mask.isSome s.fyMap.mask.isSome := by
  have hp : ∀ (q : GProp K) (n : PropName) (u : PropUnit), q.name = n ∧ q.unit = u →
      (propFiles q).map Prod.fst = (GProp.fileName n u ++ ".npy") ::
        (if q.mask.isSome then [GProp.fileName n u ++ "_mask.npy"] else []) := by
    intro q n u h
    unfold propFiles
    rw [h.1, h.2]
    cases q.mask <;> rfl
  have h1 := hp _ _ _ hs.diskRadius
  have h2 := hp _ _ _ hs.inclination
  have h3 := hp _ _ _ hs.tilt
  have h4 := hp _ _ _ hs.fxMap
  have h5 := hp _ _ _ hs.fyMap
  have e1 : GProp.fileName .diskRadius .eclipseDuration = "DISK_RADIUS_ECLIPSE_DURATION" := by decide
  have e2 : GProp.fileName .inclination .degree = "INCLINATION_DEGREE" := by decide
  have e3 : GProp.fileName .tilt .degree = "TILT_DEGREE" := by decide
  have e4 : GProp.fileName .fxMap .none = "FX_MAP_NONE" := by decide
  have e5 : GProp.fileName .fyMap .none = "FY_MAP_NONE" := by decide
  rw [e1] at h1
  rw [e2] at h2
  rw [e3] at h3
  rw [e4] at h4
  rw [e5] at h5
  unfold topFiles namesOf gridFiles five
  rw [List.map_append, hr]
  simp only [List.map_append, List.map_cons, List.map_nil, List.flatMap_cons, List.flatMap_nil,
    h1, h2, h3, h4, h5, List.cons_append, List.nil_append, List.append_nil]
  rfl

/-- A name stands for one content. -/
theorem topFiles_unique (s : Shallot K) (hs : Tidy s) (y : PyVal K) (f : String) (b b' : Blob K)
    (h : (f, b) ∈ topFiles s y) (h' : (f, b') ∈ topFiles s y) : b' = b := by
  have hn : ((topFiles s y).map Prod.fst).Nodup := by
    refine (topFiles_names s hs y).nodup ?_
    decide
  have := List.inj_on_of_nodup_map hn h h' rfl
  simpa using this.symm

/-- After a save the files hold the grid. -/
theorem save_files {fs fs' : FS K} (s : Shallot K) (hs : Tidy s) (dir : DirArg) (y : PyVal K)
    (hy : YRow s y) (h : fs.run (s.saveSteps dir y) = (.ok (), fs')) (f : String) (b : Blob K)
    (hf : (f, b) ∈ topFiles s y) : fs'.at? (dir.path ++ [f]) = some (.file b) := by
  refine run_agree _ (save_no_rmtree s dir y) ?_ (Or.inr ((mem_save_steps s hs dir y hy f b).2 hf)) h
  intro b' hb'
  exact topFiles_unique s hs y f b b' hf ((mem_save_steps s hs dir y hy f b').1 hb')

/-- A directory that is made is there in the end. -/
theorem run_made {q : Path} (ss : List (Step K)) : ∀ {fs fs' : FS K},
    (∀ d, Step.rmtreeIfExists d ∉ ss) → (fs.at? q ≠ none ∨ Step.mkdirIfMissing q ∈ ss) →
    fs.run ss = (.ok (), fs') → fs'.at? q ≠ none := by
  induction ss with
  | nil =>
    intro fs fs' _ h hr
    cases hr
    simpa using h
  | cons s ss ih =>
    intro fs fs' hn h hr
    simp only [FS.run] at hr
    cases hs : fs.step s with
    | error e => rw [hs] at hr; cases hr
    | ok f =>
      rw [hs] at hr
      refine ih (fun d hd => hn d (List.mem_cons_of_mem _ hd)) ?_ hr
      rcases h with h | h
      · left
        rcases FS.step_at? hs (fun d hd => hn d (hd ▸ List.mem_cons_self)) q with e | ⟨b', rfl, e⟩ | ⟨-, e, -⟩
        · rwa [e]
        · rw [e]; simp
        · exact absurd e h
      · rcases List.mem_cons.1 h with rfl | h
        · left
          simp only [FS.step] at hs
          split_ifs at hs with he
          · cases hs
            intro hnone
            simp [FS.exists?, hnone] at he
          · unfold FS.mkdir at hs
            split_ifs at hs
            cases hs
            rw [FS.at?_put, if_pos rfl]
            simp
        · exact Or.inr h

theorem save_gradient_dir {fs fs' : FS K} {s : Shallot K} {dir : DirArg} {y : PyVal K}
    (h : fs.run (s.saveSteps dir y) = (.ok (), fs')) (g : GGrad K) (hg : g ∈ s.gradients.getD []) :
    fs'.at? (dir.path ++ [g.dirName]) ≠ none := by
  refine run_made _ (save_no_rmtree s dir y) (Or.inr ?_) h
  rw [save_eq]
  refine List.mem_cons_of_mem _ (List.mem_append_right _ (List.mem_append_left _ ?_))
  refine List.mem_flatMap.2 ⟨g, hg, ?_⟩
  unfold GGrad.saveSteps
  exact List.mem_cons_self ..

/-- After a save to a new directory there is nothing else in it but the gradients. -/
theorem save_only (fs : FS K) (hfs : Rooted fs) (s : Shallot K) (hs : Tidy s) (p : Path) (hp : p ≠ [])
    (hn : fs.at? p = none) (y : PyVal K) (hy : YRow s y) (f : String)
    (h : (fs.run (s.saveSteps (.other p) y)).2.at? (p ++ [f]) ≠ none) :
    (∃ b, (f, b) ∈ topFiles s y) ∨ ∃ g ∈ s.gradients.getD [], f = g.dirName := by
  have hmem := fun b => mem_save_steps s hs (.other p) y hy f b
  rcases FS.run_at? fs _ (save_no_rmtree s (.other p) y) (p ++ [f]) with e | ⟨b, hb, -⟩ | ⟨hm, -⟩
  · rw [e, hfs.fresh hp hn] at h
    exact absurd rfl h
  · exact Or.inl ⟨b, (hmem b).1 hb⟩
  · have key : ∀ t : Step K, t ∈ s.saveSteps (.other p) y →
        (t = .mkdir (p ++ [f]) ∨ t = .mkdirIfMissing (p ++ [f])) →
        ∃ g ∈ s.gradients.getD [], f = g.dirName := by
      intro t ht hq
      rw [save_eq] at ht
      simp only [List.mem_cons, List.mem_append, List.mem_flatMap] at ht
      have hne : p ++ [f] ≠ p := by simp
      rcases ht with rfl | ht | ⟨g, hg, ht⟩ | ht
      · rcases hq with hq | hq
        · simp only [makeStep, Step.mkdir.injEq] at hq
          exact absurd hq.symm hne
        · cases hq
      · have hfl := flat_paths (flat_top s p y hy) (p ++ [f])
        rcases hq with rfl | rfl
        · exact absurd ht hfl.2.1
        · exact absurd (hfl.2.2 ht) hne
      · refine ⟨g, hg, ?_⟩
        rcases gradient_steps _ _ _ ht with ht | ht | ht | ht | ht
        · rw [ht] at hq
          rcases hq with hq | hq
          · cases hq
          · simp only [DirArg.path, Step.mkdirIfMissing.injEq, List.append_cancel_left_eq,
              List.cons.injEq, and_true] at hq
            exact hq.symm
        · have hfl := flat_paths (flat_prop g.prop (p ++ [g.dirName])) (p ++ [f])
          rcases hq with rfl | rfl
          · exact absurd ht hfl.2.1
          · have := hfl.2.2 ht
            simpa using this
        · rcases hq with rfl | rfl <;> cases ht
        · rcases hq with rfl | rfl <;> cases ht
        · have hfl := flat_paths (flat_params g.prop.params p) (p ++ [f])
          rcases hq with rfl | rfl
          · exact absurd ht hfl.2.1
          · exact absurd (hfl.2.2 ht) hne
      · split_ifs at ht
        · rcases hq with rfl | rfl <;> simp at ht
        · simp at ht
    rcases hm with hm | hm
    · exact Or.inr (key _ hm (Or.inl rfl))
    · exact Or.inr (key _ hm (Or.inr rfl))

theorem plain_of_top (s : Shallot K) (hs : Tidy s) (y : PyVal K) (f : String) (b : Blob K)
    (h : (f, b) ∈ topFiles s y) : PlainName f := by
  have hm : f ∈ allNames := (topFiles_names s hs y).subset (List.mem_map.2 ⟨_, h, rfl⟩)
  have hall : ∀ g ∈ allNames, PlainName g := by decide
  exact hall f hm

/-- The name of the directory of a gradient at a finite position has a dot in it. -/
theorem gradient_extension (x : K) : hasExtension ("gradient_" ++ GGrad.fmt4 (.fin x)) = true := by
  unfold hasExtension GGrad.fmt4
  simp only [String.toList_append]
  rw [show "gradient_".toList = 'g' :: "radient_".toList by decide]
  rw [List.cons_append, List.dropWhile_cons_of_neg (by decide)]
  simp

/-- Whereas infinite and undefined positions give names without one. -/
theorem gradient_no_extension (x : XF K) (hx : ∀ v, x ≠ .fin v) :
    hasExtension ("gradient_" ++ GGrad.fmt4 x) = false := by
  cases x with
  | fin v => exact absurd rfl (hx v)
  | nan => simp only [GGrad.fmt4]; decide
  | pinf => simp only [GGrad.fmt4]; decide
  | ninf => simp only [GGrad.fmt4]; decide

/-! ## Loading the attributes -/

/-- The cube as it is loaded: with the default contrast parameters. -/
def Spec.reloaded (p : GProp K) : GProp K :=
  { p with vmin := nanmin p.data.data, vmax := nanmax p.data.data, colorMap := "viridis",
           numColors := 11 }

/-- An integer as it is loaded: a numpy scalar. -/
def Spec.reread : PyVal K → PyVal K
  | .bool b => .npBool b
  | v => .npInt .w64 v.toInt

/-- An integer in a file. -/
theorem loadScalar_int {fs : FS K} {q : Path} {v : PyVal K} {n : ℤ} (hv : IsInteger v n)
    (h : fs.at? q = some (.file (GGrad.npArray [v]))) : loadScalar fs q = .ok (reread v) := by
  unfold loadScalar
  cases hv with
  | false =>
    rw [FS.load_eq_ok h (by simp [GGrad.npArray, isinstance])]
    simp [GGrad.npArray, isinstance, GGrad.blobScalars, bind, Except.bind, PyVal.toInt, reread]
  | true =>
    rw [FS.load_eq_ok h (by simp [GGrad.npArray, isinstance])]
    simp [GGrad.npArray, isinstance, GGrad.blobScalars, bind, Except.bind, PyVal.toInt, reread]
  | int n =>
    have e : GGrad.npArray [(.int n : PyVal K)] = .ints [n] := by
      simp [GGrad.npArray, isinstance, (integerType_isOk_iff _).2 ⟨n, .int n⟩, PyVal.toInt]
    rw [e] at h
    rw [FS.load_eq_ok h (by simp)]
    rfl
  | npInt w n =>
    have e : GGrad.npArray [(.npInt w n : PyVal K)] = .ints [n] := by
      simp [GGrad.npArray, isinstance, (integerType_isOk_iff _).2 ⟨n, .npInt w n⟩, PyVal.toInt]
    rw [e] at h
    rw [FS.load_eq_ok h (by simp)]
    rfl

/-- The directory holds the grid `s` (and no diagnostics). -/
structure Spec.Stored (fs : FS K) (d : Path) (s : Shallot K) : Prop where
  tidy : Tidy s
  num : fs.at? (d ++ ["num_fxfy.npy"]) = some (.file (GGrad.npArray [s.numFxfy]))
  cubes : ∀ p ∈ five s, HasProp fs d p
  noDiagnostics : fs.at? (d ++ ["fy_dict.npy"]) = none

theorem diagnostics_missing {fs : FS K} {d : Path} (h : fs.at? (d ++ ["fy_dict.npy"]) = none) :
    Diagnostics.load fs d = .error .loadError := by
  have : Diagnostics.loadBody fs d = .error .fileNotFoundError := by
    unfold Diagnostics.loadBody Diagnostics.loadDict
    rw [FS.load_none h]
    rfl
  unfold Diagnostics.load
  rw [this]

/-- A grid that takes over the stored attributes. -/
def takeOver (s t : Shallot K) : Shallot K :=
  { t with
    numFxfy := reread s.numFxfy, params := s.params, diskRadius := reloaded s.diskRadius
    inclination := reloaded s.inclination, tilt := reloaded s.tilt, fxMap := reloaded s.fxMap
    fyMap := reloaded s.fyMap, gradients := none }

theorem loadAttributes_stored {fs : FS K} {d : Path} {s : Shallot K} (h : Stored fs d s) (n : ℤ)
    (hn : IsInteger s.numFxfy n) (t : Shallot K) : Shallot.loadAttributes fs d t =
      if (fs.listdir d).all hasExtension then .ok (takeOver s t) else .error .attributeError := by
  have hw := loadScalar_int hn h.num
  have hp : ∀ p ∈ five s, GProp.load fs d p.name p.unit = .ok (reloaded p) := by
    intro p hp
    have hc := h.tidy.cubes p hp
    exact load_hasProp (h.cubes p hp) (by rw [hc.1]; exact h.tidy.consistent)
      (by rw [hc.1]; exact hc.2)
  have h1 := hp s.diskRadius (by simp [five])
  have h2 := hp s.inclination (by simp [five])
  have h3 := hp s.tilt (by simp [five])
  have h4 := hp s.fxMap (by simp [five])
  have h5 := hp s.fyMap (by simp [five])
  rw [h.tidy.diskRadius.1, h.tidy.diskRadius.2] at h1
  rw [h.tidy.inclination.1, h.tidy.inclination.2] at h2
  rw [h.tidy.tilt.1, h.tidy.tilt.2] at h3
  rw [h.tidy.fxMap.1, h.tidy.fxMap.2] at h4
  rw [h.tidy.fyMap.1, h.tidy.fyMap.2] at h5
  have hg : GridParams.load fs d = .ok s.params := by
    have hc := h.tidy.cubes s.diskRadius (by simp [five])
    have := (h.cubes s.diskRadius (by simp [five])).params
    rw [hc.1] at this
    exact load_hasGrid h.tidy.consistent this
  unfold Shallot.loadAttributes
  rw [hw, hg, h1, h2, h3, h4, h5, diagnostics_missing h.noDiagnostics]
  rfl

end

/-! ## Builds without intermittent saving -/

section
variable {K : Type} [Field K] [LinearOrder K] [IsStrictOrderedRing K] [RealFns K] [FloorRing K]

/-- What a build leaves of the files: all but the temporary directory. -/
def Spec.cleaned (fs : FS K) : FS K := if fs.exists? tempDir then fs.rmtree tempDir else fs

theorem cleaned_at? (fs : FS K) (hfs : Rooted fs) (q : Path) :
    (cleaned fs).at? q = if tempDir <+: q then none else fs.at? q := by
  unfold cleaned
  split_ifs with h1 h2 h2
  · rw [FS.at?_rmtree, if_pos h2]
  · rw [FS.at?_rmtree, if_neg h2]
  · obtain ⟨l, rfl⟩ := h2
    refine hfs.fresh (by simp [tempDir]) ?_ l
    cases h : fs.at? tempDir with
    | none => rfl
    | some n => simp [FS.exists?, h] at h1
  · rfl

theorem bind_congr {S α β : Type} {m m' : Meth S α} {f : α → Meth S β} {s s' : S}
    (h : m s = m' s') : (m >>= f) s = (m' >>= f) s' := by
  rw [Meth.bind_apply, Meth.bind_apply, h]

theorem rowsTrace_plain : ∀ (n y : ℕ) (s : Shallot K), Shallot.rowsTrace false n y s =
    match (do Shallot.buildRows n y; Shallot.recolorAll : Meth (Shallot K) Unit) s with
    | (.ok _, _) => []
    | (.error e, _) => [.raise e]
  | 0, y, s => by
    unfold Shallot.rowsTrace Shallot.buildRows
    rfl
  | n + 1, y, s => by
    unfold Shallot.rowsTrace Shallot.buildRows
    cases h : Shallot.buildRow y s.params.sliceShape.2 0 s with
    | mk r s' =>
      cases r with
      | error e =>
        have : (do
            (do let self ← Meth.get
                Shallot.buildRow y self.params.sliceShape.2 0
                Shallot.buildRows n (y + 1) : Meth (Shallot K) Unit)
            Shallot.recolorAll : Meth (Shallot K) Unit) s = (.error e, s') := by
          refine bind_err _ _ _ s' _ ?_
          rw [Meth.get_bind]
          exact bind_err _ _ _ _ _ h
        rw [this]
      | ok u =>
        have : (do
            (do let self ← Meth.get
                Shallot.buildRow y self.params.sliceShape.2 0
                Shallot.buildRows n (y + 1) : Meth (Shallot K) Unit)
            Shallot.recolorAll : Meth (Shallot K) Unit) s =
            (do Shallot.buildRows n (y + 1); Shallot.recolorAll : Meth (Shallot K) Unit) s' := by
          have e : (do let self ← Meth.get
                       Shallot.buildRow y self.params.sliceShape.2 0
                       Shallot.buildRows n (y + 1) : Meth (Shallot K) Unit) s =
              Shallot.buildRows n (y + 1) s' := by
            rw [Meth.get_bind]
            exact bind_ok _ _ _ _ u h
          exact bind_congr e
        rw [this]
        simp only [Bool.false_eq_true, if_false, List.nil_append]
        exact rowsTrace_plain n (y + 1) s'


theorem trace_plain (y : ℕ) (s : Shallot K) (fs : FS K) :
    fs.run (Shallot.trace false y s) = match Shallot.build y s with
      | (.ok _, _) => (.ok (), cleaned fs)
      | (.error e, _) => (.error e, fs) := by
  have e0 : Shallot.build y s = match (if y = 0 then Shallot.initialise s else (.ok (), s)) with
      | (.error e, s') => (.error e, s')
      | (.ok _, s') => (do Shallot.buildRows (s'.params.sliceShape.1 - y) y
                           Shallot.recolorAll : Meth (Shallot K) Unit) s' := by
    unfold Shallot.build
    by_cases hy : y = 0
    · rw [if_pos hy, if_pos hy, Meth.bind_apply]
      cases Shallot.initialise s with
      | mk r s' => cases r <;> rfl
    · rw [if_neg hy, if_neg hy]
      rfl
  rw [e0]
  unfold Shallot.trace
  cases (if y = 0 then Shallot.initialise s else (.ok (), s)) with
  | mk r s' =>
    cases r with
    | error e => rfl
    | ok u =>
      simp only [Bool.false_eq_true, if_false, List.nil_append, rowsTrace_plain]
      cases h : ((do Shallot.buildRows (s'.params.sliceShape.1 - y) y
                     Shallot.recolorAll : Meth (Shallot K) Unit) s') with
      | mk r s'' =>
        cases r with
        | error e => rfl
        | ok u =>
          simp only [List.nil_append, FS.run, FS.step, cleaned]

/-- A build that succeeds ends by removing the temporary directory. -/
theorem trace_end (saving : Bool) (y : ℕ) (s : Shallot K) (fs fs' : FS K)
    (h : fs.run (Shallot.trace saving y s) = (.ok (), fs')) :
    ∃ ss f, fs.run ss = (.ok (), f) ∧ fs' = cleaned f := by
  unfold Shallot.trace at h
  cases hi : (if y = 0 then Shallot.initialise s else (.ok (), s)) with
  | mk r s' =>
    rw [hi] at h
    cases r with
    | error e => simp [FS.run, FS.step] at h
    | ok u =>
      simp only at h
      rw [← List.append_assoc] at h
      obtain ⟨f, h1, h2⟩ := FS.run_append_ok h
      refine ⟨_, f, h1, ?_⟩
      simp only [FS.run, FS.step, Prod.mk.injEq, true_and] at h2
      exact h2.symm

/-- **C64 is false of the code** Any build that succeeds, saving or not, removes what an interrupted
build has left in the temporary directory. -/
theorem C64_false_any_build (v k saving : PyVal K) (g : GridParams K) (fs fs' : FS K) (hfs : Rooted fs)
    (s : Shallot K) (h : Shallot.newIn v k saving g fs = (.ok s, fs')) (l : Path) :
    fs'.at? (tempDir ++ l) = none := by
  unfold Shallot.newIn at h
  cases h1 : number v (.bool true) (.int 1) with
  | error e => simp [h1] at h
  | ok n =>
  simp only [h1] at h
  cases h2 : boolean k with
  | error e => simp [h2] at h
  | ok keep =>
  simp only [h2] at h
  cases h3 : boolean saving with
  | error e => simp [h3] at h
  | ok sv =>
  simp only [h3] at h
  unfold Shallot.buildIn at h
  cases h4 : fs.run (Shallot.trace sv 0 (Shallot.bare g n keep)) with
  | mk r f =>
    rw [h4] at h
    cases r with
    | error e => simp at h
    | ok u =>
      simp only at h
      have hf : f = fs' := by
        cases h5 : Shallot.build 0 (Shallot.bare g n keep) with
        | mk r s' =>
          rw [h5] at h
          cases r with
          | error e => simp at h
          | ok u => exact (Prod.mk.inj h).2
      obtain ⟨ss, f', h6, h7⟩ := trace_end _ _ _ _ _ h4
      have hr : Rooted f' := by
        have := rooted_run ss hfs
        rwa [h6] at this
      rw [← hf, h7, cleaned_at? f' hr, if_pos (List.prefix_append _ _)]

/-- Without intermittent saving the constructor does to the files only that it removes the temporary
directory, if the build succeeds. -/
theorem newIn_plain (v k : PyVal K) (g : GridParams K) (fs : FS K) :
    (∀ s g', Shallot.new v k g = (.ok s, g') → Shallot.newIn v k (.bool false) g fs = (.ok s, cleaned fs)) ∧
    (∀ e g', Shallot.new v k g = (.error e, g') →
      ∃ fs', Shallot.newIn v k (.bool false) g fs = (.error e, fs') ∧ (fs' = fs ∨ fs' = cleaned fs)) := by
  unfold Shallot.new Shallot.newIn
  cases number v (.bool true) (.int 1) with
  | error e =>
    exact ⟨fun _ _ h => by simp at h, fun e' g' h => by
      simp only [Prod.mk.injEq, Except.error.injEq] at h
      exact ⟨fs, by rw [h.1], Or.inl rfl⟩⟩
  | ok n =>
    simp only
    cases boolean k with
    | error e =>
      exact ⟨fun _ _ h => by simp at h, fun e' g' h => by
        simp only [Prod.mk.injEq, Except.error.injEq] at h
        exact ⟨fs, by rw [h.1], Or.inl rfl⟩⟩
    | ok keep =>
      have hb : boolean (.bool false : PyVal K) = .ok false := rfl
      simp only [hb]
      unfold Shallot.buildIn Shallot.complete
      rw [trace_plain, Meth.bind_apply]
      cases Shallot.build 0 (Shallot.bare g n keep) with
      | mk r s' =>
        cases r with
        | error e =>
          exact ⟨fun _ _ h => by simp at h, fun e' g' h => by
            simp only [Prod.mk.injEq, Except.error.injEq] at h
            exact ⟨fs, by rw [← h.1], Or.inl rfl⟩⟩
        | ok u =>
          simp only
          unfold Shallot.finish
          cases ((do Shallot.extendGrid; Shallot.diagnose : Meth (Shallot K) Unit) s') with
          | mk r s'' =>
            cases r with
            | error e =>
              exact ⟨fun _ _ h => by simp at h, fun e' g' h => by
                simp only [Prod.mk.injEq, Except.error.injEq] at h
                exact ⟨cleaned fs, by rw [← h.1], Or.inr rfl⟩⟩
            | ok u =>
              exact ⟨fun s g' h => by
                simp only [Prod.mk.injEq, Except.ok.injEq] at h
                rw [← h.1], fun _ _ h => by simp at h⟩

end

/-! ## Loading a whole grid -/

section

/-- `load` after its small grid `t`. -/
def readInto {K : Type} [Field K] [LinearOrder K] [RealFns K] [FloorRing K] (d : Path) (t : Shallot K)
    (fs : FS K) : Except Err (Shallot K) × FS K :=
  match Shallot.loadAttributes fs d t with
  | .error e => (.error e, fs)
  | .ok s => Shallot.resume d (Shallot.helpers s) fs

theorem load_of {K : Type} [Field K] [LinearOrder K] [IsStrictOrderedRing K] [RealFns K] [FloorRing K]
    (d : Path) (fs fs' : FS K) (g : GridParams K) (t : Shallot K)
    (hg : GridParams.new (K := K) (.int 0) (.int 1) (.int 2) (.int 0) (.int 1) (.int 2) (.int 2)
      (.int 2) = .ok g) (h : Shallot.newIn (.int 100) (.bool false) (.bool false) g fs = (.ok t, fs')) :
    Shallot.load d fs = readInto d t fs' := by
  unfold Shallot.load readInto
  rw [hg]
  simp only [h]
  generalize Shallot.loadAttributes fs' d t = r
  cases r <;> rfl

theorem new_tiny : GridParams.new (K := ℝ) (.int 0) (.int 1) (.int 2) (.int 0) (.int 1) (.int 2) (.int 2)
    (.int 2) = .ok throwAway := throwAway_new

/-- `load` first builds a small grid, which removes the temporary directory; then it reads. -/
theorem load_start : ∃ t : Shallot ℝ, t.diagnostics = none ∧ t.gradientFit = none ∧
    t.eclipseDuration = none ∧ t.velocity = none ∧ t.limb = none ∧
    ∀ (d : Path) (fs : FS ℝ), Shallot.load d fs = readInto d t (cleaned fs) := by
  obtain ⟨t, dg, h1, h2, h3⟩ := (C72_new _ _ _ _ _ _ _ _ throwAway throwAway_new
    (fun _ => ⟨le_rfl, le_rfl⟩) (.int 100) (.bool false) 100 count_hundred false rfl).1
    (fun y x hy hx => throwAway_buildable y x (by rwa [throwAway_length.2.1] at hy)
      (by rwa [throwAway_length.1] at hx))
  have h4 : t.diagnostics = none := by
    rw [h2.diagnostics]
    cases dg with
    | none => show (if _ then (none : Option (Diagnostics ℝ)).map _ else none) = none; split_ifs <;> rfl
    | some dg => exact absurd rfl h3.1
  refine ⟨t, h4, h2.nothing.2.1, h2.nothing.2.2.1, h2.nothing.2.2.2.1, h2.nothing.2.2.2.2, ?_⟩
  intro d fs
  rw [load_of d fs _ _ t new_tiny ((newIn_plain _ _ _ fs).1 t _ h1)]

theorem finish_plain (s : Shallot ℝ) (h : s.params.extendable = false) : Shallot.finish s = .ok
    { s with diagnosticMap := some (fresh .diagnosticMap .eclipseDuration s.params (diagnosticOf s)
      "viridis") } := by
  unfold Shallot.finish
  rw [bind_ok _ _ _ _ () (C56_not_extended s h), diagnose_ok]

/-- What becomes of a grid when it is saved and loaded. -/
noncomputable def Spec.afterLoading (s : Shallot ℝ) : Shallot ℝ :=
  { Shallot.helpers s with
    numFxfy := reread s.numFxfy, diskRadius := reloaded s.diskRadius
    inclination := reloaded s.inclination, tilt := reloaded s.tilt, fxMap := reloaded s.fxMap
    fyMap := reloaded s.fyMap, gradients := none, gradientFit := none, eclipseDuration := none
    velocity := none, limb := none
    diagnosticMap := some (fresh .diagnosticMap .eclipseDuration s.params (diagnosticOf s) "viridis") }

theorem not_temp {p : Path} (hp : p ≠ []) (ht : ¬ tempDir <+: p) (l : Path) : ¬ tempDir <+: p ++ l := by
  intro h
  refine ht ?_
  cases p with
  | nil => exact absurd rfl hp
  | cons a p =>
    rw [tempDir, List.cons_append, List.cons_prefix_cons] at h
    rw [tempDir, List.cons_prefix_cons]
    exact ⟨h.1, List.nil_prefix⟩

theorem stored_save (fs : FS ℝ) (hfs : Rooted fs) (s : Shallot ℝ) (hs : Tidy s)
    (p : Path) (hp : p ≠ []) (hn : fs.at? p = none) (ht : ¬ tempDir <+: p) (fs' : FS ℝ)
    (h : fs.run (s.saveSteps (.other p)) = (.ok (), fs')) :
    Stored (cleaned fs') p s ∧ (cleaned fs').at? (p ++ ["y_value.npy"]) = none ∧
    (((cleaned fs').listdir p).all hasExtension = true ↔
      ∀ g ∈ s.gradients.getD [], ∃ x, g.position.num = .fin x) := by
  have hr : Rooted fs' := by
    have := rooted_run (s.saveSteps (.other p)) hfs
    rwa [h] at this
  have hat : ∀ l, (cleaned fs').at? (p ++ l) = fs'.at? (p ++ l) := fun l => by
    rw [cleaned_at? fs' hr, if_neg (not_temp hp ht l)]
  have hrow : YRow s .none := Or.inl rfl
  have hfile := save_files s hs (.other p) .none hrow h
  have honly : ∀ f, fs'.at? (p ++ [f]) ≠ none → (∃ b, (f, b) ∈ topFiles s .none) ∨
      ∃ g ∈ s.gradients.getD [], f = g.dirName := by
    intro f hf
    have := save_only fs hfs s hs p hp hn .none hrow f
    rw [h] at this
    exact this hf
  have habs : ∀ f, PlainName f → (∀ b, (f, b) ∉ topFiles s .none) → fs'.at? (p ++ [f]) = none := by
    intro f h1 h2
    by_contra hc
    rcases honly f hc with ⟨b, hb⟩ | ⟨g, -, rfl⟩
    · exact h2 b hb
    · exact absurd h1 (gradient_name _)
  have hnames : ∀ f b, (f, b) ∈ topFiles s (.none : PyVal ℝ) → f ∈ namesOf false s.diskRadius.mask.isSome
      s.inclination.mask.isSome s.tilt.mask.isSome s.fxMap.mask.isSome s.fyMap.mask.isSome := by
    intro f b hb
    have hm : f ∈ (topFiles s (.none : PyVal ℝ)).map Prod.fst := List.mem_map.2 ⟨_, hb, rfl⟩
    rwa [topFiles_namesOf s hs .none false rfl] at hm
  have hmem : ∀ q ∈ five s, ∀ e ∈ propFiles q, e ∈ topFiles s .none := by
    intro q hq e he
    unfold topFiles
    refine List.mem_append_right _ (List.mem_cons_of_mem _ (List.mem_append_right _ ?_))
    exact List.mem_flatMap.2 ⟨q, hq, he⟩
  have hgrid : HasGrid (cleaned fs') p s.params := by
    have hgm : ∀ e ∈ gridFiles s.params, e ∈ topFiles s .none := by
      intro e he
      unfold topFiles
      exact List.mem_append_right _ (List.mem_cons_of_mem _ (List.mem_append_left _ he))
    constructor <;> rw [hat] <;> refine hfile _ _ (hgm _ ?_) <;> simp [gridFiles]
  have key : ∀ q ∈ five s, HasProp (cleaned fs') p q := by
    intro q hq
    refine ⟨?_, ?_, ?_⟩
    · rw [hat]
      exact hfile _ _ (hmem q hq _ (List.mem_cons_self ..))
    · rw [hat]
      cases hm : q.mask with
      | some m =>
        refine hfile _ _ (hmem q hq _ ?_)
        simp [propFiles, hm]
      | none =>
        refine habs _ ?_ ?_
        · exact (plain_fileName _ _).2
        · intro b hb
          have hmm := hnames _ b hb
          revert hmm
          have a1 : ∀ b c x y, GProp.fileName .diskRadius .eclipseDuration ++ "_mask.npy" ∉
            namesOf false false b c x y := by decide
          have a2 : ∀ a c x y, GProp.fileName .inclination .degree ++ "_mask.npy" ∉
            namesOf false a false c x y := by decide
          have a3 : ∀ a b x y, GProp.fileName .tilt .degree ++ "_mask.npy" ∉
            namesOf false a b false x y := by decide
          have a4 : ∀ a b c y, GProp.fileName .fxMap .none ++ "_mask.npy" ∉
            namesOf false a b c false y := by decide
          have a5 : ∀ a b c x, GProp.fileName .fyMap .none ++ "_mask.npy" ∉
            namesOf false a b c x false := by decide
          simp only [five, List.mem_cons, List.not_mem_nil, or_false] at hq
          rcases hq with rfl | rfl | rfl | rfl | rfl
          · rw [hs.diskRadius.1, hs.diskRadius.2, hm]; exact a1 _ _ _ _
          · rw [hs.inclination.1, hs.inclination.2, hm]; exact a2 _ _ _ _
          · rw [hs.tilt.1, hs.tilt.2, hm]; exact a3 _ _ _ _
          · rw [hs.fxMap.1, hs.fxMap.2, hm]; exact a4 _ _ _ _
          · rw [hs.fyMap.1, hs.fyMap.2, hm]; exact a5 _ _ _ _
    · rw [(hs.cubes q hq).1]; exact hgrid
  refine ⟨⟨hs, ?_, key, ?_⟩, ?_, ?_⟩
  · rw [hat]
    refine hfile _ _ ?_
    simp [topFiles]
  · rw [hat]
    refine habs _ (by decide) ?_
    intro b hb
    have hm : "fy_dict.npy" ∈ allNames :=
      (topFiles_names s hs .none).subset (List.mem_map.2 ⟨_, hb, rfl⟩)
    exact absurd hm (by decide)
  · rw [hat]
    refine habs _ (by decide) ?_
    intro b hb
    have hm := hnames _ b hb
    revert hm
    have hall : ∀ a b c x y, "y_value.npy" ∉ namesOf false a b c x y := by decide
    exact hall _ _ _ _ _
  · rw [List.all_eq_true]
    have hname : ∀ g : GGrad ℝ, hasExtension g.dirName = true ↔ ∃ x, g.position.num = .fin x := by
      intro g
      unfold GGrad.dirName
      cases hx : g.position.num with
      | fin x => simp [gradient_extension]
      | nan => rw [gradient_no_extension _ (by simp)]; simp
      | pinf => rw [gradient_no_extension _ (by simp)]; simp
      | ninf => rw [gradient_no_extension _ (by simp)]; simp
    constructor
    · intro hall g hg
      refine (hname g).1 (hall _ ((mem_listdir _ _ _).2 ?_))
      rw [hat]
      exact save_gradient_dir h g hg
    · intro hall f hf
      have hf := (mem_listdir _ _ _).1 hf
      rw [hat] at hf
      rcases honly f hf with ⟨b, hb⟩ | ⟨g, hg', rfl⟩
      · exact (plain_of_top s hs _ f b hb).2
      · exact (hname g).2 (hall g hg')

/-- **C62 (partial)** A grid without diagnostics that is saved to a new directory can be loaded from
there, and has the same parameters, values and masks.  Missing: gradients; these are lost, see
`C62_false`. -/
theorem C62_round_trip_partial (fs : FS ℝ) (hfs : Rooted fs) (s : Shallot ℝ) (hs : Tidy s)
    (he : s.params.extendable = false) (hd : s.diagnostics = none) (n : ℤ)
    (hn : IsInteger s.numFxfy n) (hg : ∀ g ∈ s.gradients.getD [], ∃ x, g.position.num = .fin x)
    (p : Path) (hp : p ≠ []) (hnew : fs.at? p = none) (hpar : fs.isDir p.dropLast = true)
    (ht : ¬ tempDir <+: p) :
    ∃ fs', fs.run (s.saveSteps (.other p)) = (.ok (), fs') ∧
      Shallot.load p fs' = (.ok (afterLoading s), cleaned fs') := by
  obtain ⟨fs', h⟩ := C65_without_partial fs hfs s hd p hp hnew hpar .none (Or.inl rfl)
  refine ⟨fs', h, ?_⟩
  obtain ⟨h1, h2, h3⟩ := stored_save fs hfs s hs p hp hnew ht fs' h
  obtain ⟨t, t1, t2, t3, t4, t5, hl⟩ := load_start
  rw [hl]
  unfold readInto
  rw [loadAttributes_stored h1 n hn, if_pos (h3.2 hg)]
  simp only
  unfold Shallot.resume
  have : (cleaned fs').exists? (p ++ ["y_value.npy"]) = false := by
    simp [FS.exists?, h2]
  rw [if_neg (by rw [this]; simp), finish_plain _ (by exact he)]
  unfold afterLoading Shallot.helpers diagnosticOf takeOver
  simp only [t1, t2, t3, t4, t5, hd, reloaded]

/-- **C62 is false of the code** If a gradient is at a position that is no number, then loading raises
`AttributeError`: the name of its directory has no dot, and there is no `GridGradient.load_gradient`. -/
theorem C62_false_undefined (fs : FS ℝ) (hfs : Rooted fs) (s : Shallot ℝ) (hs : Tidy s)
    (hd : s.diagnostics = none) (n : ℤ) (hn : IsInteger s.numFxfy n)
    (hg : ∃ g ∈ s.gradients.getD [], ∀ x, g.position.num ≠ .fin x)
    (p : Path) (hp : p ≠ []) (hnew : fs.at? p = none) (hpar : fs.isDir p.dropLast = true)
    (ht : ¬ tempDir <+: p) :
    ∃ fs', fs.run (s.saveSteps (.other p)) = (.ok (), fs') ∧
      Shallot.load p fs' = (.error .attributeError, cleaned fs') := by
  obtain ⟨fs', h⟩ := C65_without_partial fs hfs s hd p hp hnew hpar .none (Or.inl rfl)
  refine ⟨fs', h, ?_⟩
  obtain ⟨h1, h2, h3⟩ := stored_save fs hfs s hs p hp hnew ht fs' h
  obtain ⟨t, -, -, -, -, -, hl⟩ := load_start
  rw [hl]
  unfold readInto
  rw [loadAttributes_stored h1 n hn, if_neg]
  intro hall
  obtain ⟨g, hg1, hg2⟩ := hg
  obtain ⟨x, hx⟩ := h3.1 hall g hg1
  exact hg2 x hx

/-- **C64 is false of the code** Loading removes the temporary directory before it reads anything: so
an interrupted build cannot be resumed from there, and what it had saved is lost. -/
theorem C64_false (fs : FS ℝ) (hfs : Rooted fs) : ∃ fs', Shallot.load tempDir fs =
    (.error .fileNotFoundError, fs') ∧ (∀ l, fs'.at? (tempDir ++ l) = none) ∧
    ∀ q, ¬ tempDir <+: q → fs'.at? q = fs.at? q := by
  obtain ⟨t, -, -, -, -, -, h⟩ := load_start
  refine ⟨cleaned fs, ?_, ?_, ?_⟩
  · rw [h]
    unfold readInto
    have : Shallot.loadAttributes (cleaned fs) tempDir t = .error .fileNotFoundError := by
      unfold Shallot.loadAttributes loadScalar
      rw [FS.load_none]
      · rfl
      · rw [cleaned_at? fs hfs, if_pos (List.prefix_append _ _)]
    rw [this]
  · intro l
    rw [cleaned_at? fs hfs, if_pos (List.prefix_append _ _)]
  · intro q hq
    rw [cleaned_at? fs hfs, if_neg hq]

end
end Beyonce
