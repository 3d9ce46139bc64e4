import Verif.FilesLemmas
import Verif.Props.GridParameters

/-!
# Properties C25, C26: `GridParameters` on disk
-/

set_option linter.unusedSectionVars false

namespace Beyonce
open Spec
variable {K : Type} [Field K] [LinearOrder K]

/-- The shapes and the flag of a grid agree with its vectors. -/
structure Spec.Consistent (g : GridParams K) : Prop where
  gridShape : g.gridShape = (g.dy.data.length, g.dx.data.length, g.rfArray.data.length)
  sliceShape : g.sliceShape = (g.dy.data.length, g.dx.data.length)
  dx : g.dx.data ≠ []
  dy : g.dy.data ≠ []
  extendable : g.extendable = true ↔ g.dy.data[0]? = some (.fin 0) ∧ g.dx.data[0]? = some (.fin 0)

/-- The four files of a saved grid. -/
structure Spec.HasGrid (fs : FS K) (dir : Path) (g : GridParams K) : Prop where
  dx : fs.at? (dir ++ ["dx.npy"]) = some (.file (.floats g.dx.shape g.dx.data))
  dy : fs.at? (dir ++ ["dy.npy"]) = some (.file (.floats g.dy.shape g.dy.data))
  rf : fs.at? (dir ++ ["rf.npy"]) = some (.file (.floats g.rf.shape g.rf.data))
  rfArray : fs.at? (dir ++ ["rf_array.npy"]) = some (.file (.floats g.rfArray.shape g.rfArray.data))

variable [IsStrictOrderedRing K]

theorem eqb_zero_iff (x : XF K) : XF.eqb x (.fin 0) = true ↔ x = .fin 0 := by
  cases x <;> simp [XF.eqb]

theorem gridOf_consistent (a b : XF K) {nx : ℕ} (c d : XF K) {ny : ℕ} (m : XF K) (nr : ℕ)
    (hx : 1 ≤ nx) (hy : 1 ≤ ny) : Consistent (gridOf a b nx c d ny m nr) := by
  refine ⟨by simp [gridOf, linspace_length], by simp [gridOf, linspace_length],
    linspace_ne_nil _ _ hx, linspace_ne_nil _ _ hy, ?_⟩
  simp only [gridOf, Bool.and_eq_true, eqb_zero_iff]
  have key : ∀ l : List (XF K), l.headD .nan = .fin 0 ↔ l[0]? = some (.fin 0) := by
    intro l; cases l <;> simp
  rw [key, key]

/-- The grids that a program can have in its hands (save for the half-extended one of C24). -/
theorem new_consistent {minX maxX numX minY maxY numY maxRf numRf : PyVal K} {g : GridParams K}
    (hg : GridParams.new minX maxX numX minY maxY numY maxRf numRf = .ok g) : Consistent g := by
  obtain ⟨a, b, nx, c, d, ny, m, nr, ⟨p1, p2, p3, p4⟩, ⟨q1, q2, q3, q4⟩, -, rfl⟩ :=
    (new_ok_iff ..).1 hg
  exact gridOf_consistent _ _ _ _ _ _ p4.1 q4.1

theorem setExtendable_consistent {g g' : GridParams K} (h : g.setShapes.setExtendable = .ok g')
    (hx : g.dx.data ≠ []) (hy : g.dy.data ≠ []) : Consistent g' := by
  rw [setExtendable_cons _ (by exact hx) (by exact hy)] at h
  cases h
  refine ⟨rfl, rfl, hx, hy, ?_⟩
  simp only [Bool.and_eq_true, eqb_zero_iff, GridParams.setShapes]
  have key : ∀ l : List (XF K), l.headD .nan = .fin 0 ↔ l[0]? = some (.fin 0) := by
    intro l; cases l <;> simp
  rw [key, key]

/-- A successful `extend_grid` leaves a consistent grid, whatever grid it was called on. -/
theorem extend_consistent {g g' : GridParams K} (h : GridParams.extendGrid g = (.ok (), g')) :
    Consistent g' := by
  unfold GridParams.extendGrid at h
  simp only [Meth.get_bind] at h
  split_ifs at h with h1
  · cases h
  · cases hy : GridParams.lastOf g.dy with
    | error e => rw [hy, Meth.lift_error_bind] at h; cases h
    | ok my =>
    cases hx : GridParams.lastOf g.dx with
    | error e => rw [hy, Meth.lift_ok_bind, hx, Meth.lift_error_bind] at h; cases h
    | ok mx =>
    rw [hy, Meth.lift_ok_bind, hx, Meth.lift_ok_bind] at h
    cases hdx : determineDx (GridParams.negVal mx) mx (.int (2 * g.sliceShape.2 - 1)) with
    | error e => rw [hdx, Meth.lift_error_bind] at h; cases h
    | ok dx =>
    rw [hdx, Meth.lift_ok_bind, Meth.modify_bind] at h
    cases hdy : determineDy (GridParams.negVal my) my (.int (2 * g.sliceShape.1 - 1)) with
    | error e => rw [hdy, Meth.lift_error_bind] at h; cases h
    | ok dy =>
    rw [hdy, Meth.lift_ok_bind, Meth.modify_bind, Meth.modify_bind, Meth.get_bind] at h
    obtain ⟨_, _, nx, _, _, _, hnx, rfl⟩ := (determineDx_ok_iff _ _ _ _).1 hdx
    obtain ⟨_, _, ny, _, _, _, hny, rfl⟩ := (determineDy_ok_iff _ _ _ _).1 hdy
    generalize hq : GridParams.setExtendable (K := K) _ = q at h
    cases q with
    | error e => rw [Meth.lift_error_bind] at h; cases h
    | ok g2 =>
      rw [Meth.lift_ok_bind, Meth.set_apply] at h
      cases h
      exact setExtendable_consistent hq (linspace_ne_nil _ _ hnx.1) (linspace_ne_nil _ _ hny.1)

theorem consistent_eq {g : GridParams K} (hg : Consistent g) (g0 : GridParams K) :
    ({ g0 with dx := g.dx, dy := g.dy, rf := g.rf, rfArray := g.rfArray } :
      GridParams K).setShapes.setExtendable = .ok g := by
  obtain ⟨h1, h2, h3, h4, h5⟩ := hg
  rw [setExtendable_cons _ (by exact h3) (by exact h4)]
  have key : ∀ l : List (XF K), l.headD .nan = .fin 0 ↔ l[0]? = some (.fin 0) := by
    intro l; cases l <;> simp
  have he : g.extendable = (XF.eqb (g.dy.data.headD .nan) (.fin 0) &&
        XF.eqb (g.dx.data.headD .nan) (.fin 0)) := by
    rw [Bool.eq_iff_iff, h5, Bool.and_eq_true, eqb_zero_iff, eqb_zero_iff, key, key]
  obtain ⟨dx, dy, rf, rfArray, gs, ss, e⟩ := g
  simp only at h1 h2 he
  simp only [GridParams.setShapes]
  subst h1 h2 he
  rfl

theorem temp_grid : ∃ g0 : GridParams K, GridParams.new (.int 0) (.int 1) (.int 1) (.int 0) (.int 1)
    (.int 1) (.int 2) (.int 1) = .ok g0 := by
  have hn : ∀ n : ℤ, IsNumber false (.int n : PyVal K) (.fin n) := fun n => Or.inl ⟨n, .int n, rfl⟩
  have hc : Count (.int 1 : PyVal K) 1 := ⟨le_refl _, .int 1⟩
  have hl : ¬ LessEq (.fin ((1 : ℤ) : K)) (.fin ((0 : ℤ) : K)) := by
    rw [lessEq_iff]; simp
  apply (C21_constructor_iff _ _ _ _ _ _ _ _).2
  refine ⟨⟨_, _, 1, hn 0, hn 1, hl, hc⟩, ⟨_, _, 1, hn 0, hn 1, hl, hc⟩, ⟨_, 1, hn 2, ?_, hc⟩⟩
  rw [less_iff]; simp

theorem loadNd_file {fs : FS K} {p : Path} {a : Nd K}
    (h : fs.at? p = some (.file (.floats a.shape a.data))) : GridParams.loadNd fs p = .ok a := by
  unfold GridParams.loadNd
  rw [FS.load_eq_ok h (by simp)]
  rfl

theorem loadNd_ok {fs : FS K} {p : Path} {a : Nd K} (h : GridParams.loadNd fs p = .ok a) :
    fs.at? p = some (.file (.floats a.shape a.data)) := by
  unfold GridParams.loadNd at h
  cases hl : fs.load p with
  | error e => rw [hl] at h; cases h
  | ok b =>
    rw [hl] at h
    have := (FS.load_ok_at? hl).1
    cases b <;> simp only [bind, Except.bind] at h <;> cases h
    exact this

theorem load_hasGrid {fs : FS K} {dir : Path} {g : GridParams K} (hg : Consistent g)
    (h : HasGrid fs dir g) : GridParams.load fs dir = .ok g := by
  obtain ⟨g0, h0⟩ := temp_grid (K := K)
  have : GridParams.loadBody fs dir = .ok g := by
    unfold GridParams.loadBody
    rw [h0, loadNd_file h.dx, loadNd_file h.dy, loadNd_file h.rf, loadNd_file h.rfArray]
    exact consistent_eq hg g0
  unfold GridParams.load
  rw [this]

/-- What a successful `load` found. -/
theorem load_ok_hasGrid {fs : FS K} {dir : Path} {g : GridParams K}
    (h : GridParams.load fs dir = .ok g) : HasGrid fs dir g := by
  obtain ⟨g0, h0⟩ := temp_grid (K := K)
  unfold GridParams.load at h
  cases hb : GridParams.loadBody fs dir with
  | error e => rw [hb] at h; cases h
  | ok g' =>
  rw [hb] at h
  cases h
  unfold GridParams.loadBody at hb
  rw [h0] at hb
  simp only [bind, Except.bind] at hb
  cases h1 : GridParams.loadNd fs (dir ++ ["dx.npy"]) with
  | error e => rw [h1] at hb; cases hb
  | ok dx =>
  cases h2 : GridParams.loadNd fs (dir ++ ["dy.npy"]) with
  | error e => rw [h1, h2] at hb; cases hb
  | ok dy =>
  cases h3 : GridParams.loadNd fs (dir ++ ["rf.npy"]) with
  | error e => rw [h1, h2, h3] at hb; cases hb
  | ok rf =>
  cases h4 : GridParams.loadNd fs (dir ++ ["rf_array.npy"]) with
  | error e => rw [h1, h2, h3, h4] at hb; cases hb
  | ok rfa =>
  rw [h1, h2, h3, h4] at hb
  simp only at hb
  have key : g.dx = dx ∧ g.dy = dy ∧ g.rf = rf ∧ g.rfArray = rfa := by
    unfold GridParams.setExtendable GridParams.setShapes at hb
    simp only at hb
    split at hb
    · cases hb
    · split_ifs at hb
      · split at hb <;> cases hb
        exact ⟨rfl, rfl, rfl, rfl⟩
      · cases hb; exact ⟨rfl, rfl, rfl, rfl⟩
  obtain ⟨rfl, rfl, rfl, rfl⟩ := key
  exact ⟨loadNd_ok h1, loadNd_ok h2, loadNd_ok h3, loadNd_ok h4⟩

/-- `load` never raises anything but `LoadError`. -/
theorem load_total (fs : FS K) (dir : Path) :
    (∃ g, GridParams.load fs dir = .ok g) ∨ GridParams.load fs dir = .error .loadError := by
  unfold GridParams.load
  cases GridParams.loadBody fs dir with
  | ok g => exact Or.inl ⟨g, rfl⟩
  | error e => exact Or.inr rfl

theorem saveSteps_no_rmtree (g : GridParams K) (dir d : Path) :
    Step.rmtreeIfExists d ∉ g.saveSteps dir := by simp [GridParams.saveSteps]

theorem save_hasGrid {fs fs' : FS K} {g : GridParams K} {dir : Path}
    (h : fs.run (g.saveSteps dir) = (.ok (), fs')) : HasGrid fs' dir g := by
  have hne : ∀ a b : String, a ≠ b → dir ++ [a] ≠ dir ++ [b] := by
    intro a b hab h; exact hab (by simpa using h)
  refine ⟨?_, ?_, ?_, ?_⟩
  · exact FS.run_written (ss := [.mkdirIfMissing dir]) h (by simp) (by simp)
  · exact FS.run_written (ss := [.mkdirIfMissing dir, .write _ _]) h (by simp) (by simp)
  · exact FS.run_written (ss := [.mkdirIfMissing dir, .write _ _, .write _ _]) h (by simp) (by simp)
  · exact FS.run_written (ss := [.mkdirIfMissing dir, .write _ _, .write _ _, .write _ _]) (ts := []) h
      (by simp) (by simp)

/-- **C25 (partial)** Loading a directory a consistent grid was saved to gives back that grid.
Missing for the full claim: the half-extended grid of C24, for which it is false (`C25_false`). -/
theorem C25_round_trip_partial (fs fs' : FS K) (g : GridParams K) (dir : Path) (hg : Consistent g)
    (h : fs.run (g.saveSteps dir) = (.ok (), fs')) : GridParams.load fs' dir = .ok g :=
  load_hasGrid hg (save_hasGrid h)

/-- **C25** Every grid made by the constructor, and every grid left by a successful `extend_grid`,
is consistent, so the round trip holds for it. -/
theorem C25_consistent :
    (∀ (minX maxX numX minY maxY numY maxRf numRf : PyVal K) (g : GridParams K),
      GridParams.new minX maxX numX minY maxY numY maxRf numRf = .ok g → Consistent g) ∧
    (∀ g g' : GridParams K, GridParams.extendGrid g = (.ok (), g') → Consistent g') :=
  ⟨fun _ _ _ _ _ _ _ _ _ h => new_consistent h, fun _ _ h => extend_consistent h⟩

/-- **C25** Saving into a directory that does not exist, in one that does, succeeds. -/
theorem C25_save_succeeds (fs : FS K) (g : GridParams K) (dir : Path)
    (h : fs.at? dir = none) (hp : fs.isDir dir.dropLast = true)
    (hf : ∀ f, fs.at? (dir ++ [f]) = none) :
    ∃ fs', fs.run (g.saveSteps dir) = (.ok (), fs') := by
  unfold GridParams.saveSteps
  rw [FS.run]
  rw [FS.step_mkdirIfMissing_ok h hp]
  obtain ⟨fs', h', -⟩ := FS.run_writes_ok dir
    [("dx.npy", .floats g.dx.shape g.dx.data), ("dy.npy", .floats g.dy.shape g.dy.data),
     ("rf.npy", .floats g.rf.shape g.rf.data),
     ("rf_array.npy", .floats g.rfArray.shape g.rfArray.data)] (fs.put dir .dir)
    (FS.isDir_put_dir fs dir) (by
      intro w _
      rw [FS.at?_put, if_neg (by simp), hf]
      simp)
  exact ⟨fs', h'⟩

/-- **C25** Saving other grids in other directories in between does no harm, even if such a save
fails half way. -/
theorem C25_saving_elsewhere (fs fs' : FS K) (g h : GridParams K) (dir dir' : Path)
    (hg : Consistent g) (hs : fs.run (g.saveSteps dir) = (.ok (), fs')) (hd : dir' ≠ dir) :
    GridParams.load (fs'.run (h.saveSteps dir')).2 dir = .ok g := by
  have hG := save_hasGrid hs
  have hne : ∀ a b : String, dir ++ [a] ≠ dir' ++ [b] := by
    intro a b hab
    exact hd (List.append_inj_left' hab rfl).symm
  have keep : ∀ (f : String) (n : Node K), fs'.at? (dir ++ [f]) = some n →
      (fs'.run (h.saveSteps dir')).2.at? (dir ++ [f]) = some n := by
    intro f n hn
    apply FS.run_frame_some _ _ (fun d => saveSteps_no_rmtree h dir' d) _ _ hn
    intro b
    simp [GridParams.saveSteps, hne]
  exact load_hasGrid hg ⟨keep _ _ hG.dx, keep _ _ hG.dy, keep _ _ hG.rf, keep _ _ hG.rfArray⟩

/-- **C25 is false** for the grid that a failed `extend_grid` leaves: the loaded object has another
`grid_shape`. -/
theorem C25_false : ∃ (g g' g'' : GridParams ℚ) (e : Err) (fs : FS ℚ),
    GridParams.new (.int 0) (.int 1) (.int 2) (.int 0) (.int 1) (.int 1) (.int 2) (.int 2) = .ok g ∧
    GridParams.extendGrid g = (.error e, g') ∧
    FS.run [] (g'.saveSteps ["d"]) = (.ok (), fs) ∧
    GridParams.load fs ["d"] = .ok g'' ∧ g''.gridShape ≠ g'.gridShape := by
  let g : GridParams ℚ := gridOf (.fin 0) (.fin 1) 2 (.fin 0) (.fin 1) 1 (.fin 2) 2
  let g' := (GridParams.extendGrid g).2
  let fs := (FS.run [] (g'.saveSteps ["d"])).2
  have h : ∃ g'', GridParams.load fs ["d"] = .ok g'' ∧ g''.gridShape ≠ g'.gridShape := by
    have : ((GridParams.load fs ["d"]).toOption.map fun g'' => decide (g''.gridShape ≠ g'.gridShape))
        = some true := by decide +kernel
    cases hl : GridParams.load fs ["d"] with
    | error e => rw [hl] at this; cases this
    | ok g'' => rw [hl] at this; exact ⟨g'', rfl, by simpa [Except.toOption] using this⟩
  obtain ⟨g'', h1, h2⟩ := h
  exact ⟨g, g', g'', .valueError, fs, by decide +kernel, by decide +kernel, by decide +kernel, h1, h2⟩

/-! ## C26 -/

theorem crash_at? (fs : FS K) (ss : List (Step K)) (hs : ∀ d, .rmtreeIfExists d ∉ ss) (k : ℕ)
    (tear : Bool) (q : Path) :
    (fs.crash ss k tear).at? q = fs.at? q ∨
    (∃ b, .write q b ∈ ss ∧ (fs.crash ss k tear).at? q = some (.file b)) ∨
    (∃ b, .write q b ∈ ss ∧ (fs.crash ss k tear).at? q = some (.file .torn)) ∨
    ((.mkdir q ∈ ss ∨ .mkdirIfMissing q ∈ ss) ∧ fs.at? q = none) := by
  have hs' : ∀ d, .rmtreeIfExists d ∉ ss.take k := fun d h => hs d (List.mem_of_mem_take h)
  have base : (fs.run (ss.take k)).2.at? q = fs.at? q ∨
      (∃ b, .write q b ∈ ss ∧ (fs.run (ss.take k)).2.at? q = some (.file b)) ∨
      ((.mkdir q ∈ ss ∨ .mkdirIfMissing q ∈ ss) ∧ fs.at? q = none) := by
    rcases FS.run_at? fs (ss.take k) hs' q with h | ⟨b, hb, h⟩ | ⟨hm, h, -⟩
    · exact Or.inl h
    · exact Or.inr (Or.inl ⟨b, List.mem_of_mem_take hb, h⟩)
    · exact Or.inr (Or.inr ⟨hm.imp List.mem_of_mem_take List.mem_of_mem_take, h⟩)
  have base' : ∀ f : FS K, f.at? q = (fs.run (ss.take k)).2.at? q → f.at? q = fs.at? q ∨
      (∃ b, .write q b ∈ ss ∧ f.at? q = some (.file b)) ∨
      (∃ b, .write q b ∈ ss ∧ f.at? q = some (.file .torn)) ∨
      ((.mkdir q ∈ ss ∨ .mkdirIfMissing q ∈ ss) ∧ fs.at? q = none) := by
    intro f hf
    rw [hf]
    rcases base with h | h | h
    · exact Or.inl h
    · exact Or.inr (Or.inl h)
    · exact Or.inr (Or.inr (Or.inr h))
  unfold FS.crash
  simp only
  split_ifs with h1
  · split
    · rename_i p b hk
      have hmem : Step.write p b ∈ ss := List.mem_of_getElem? hk
      by_cases hq : p = q
      · subst hq
        rcases FS.run_at? (fs.run (ss.take k)).2 [.write p .torn] (by simp) p with h | ⟨b', hb, h⟩ | ⟨hm, -⟩
        · exact base' _ h
        · simp at hb; subst hb
          exact Or.inr (Or.inr (Or.inl ⟨b, hmem, h⟩))
        · simp at hm
      · apply base'
        apply FS.run_frame _ _ (by simp) <;> simp
        intro h; exact absurd h.symm hq
    · exact base' _ rfl
  · exact base' _ rfl

theorem load_error_of {fs : FS K} {dir : Path}
    (h : fs.at? (dir ++ ["rf_array.npy"]) = none ∨
      fs.at? (dir ++ ["rf_array.npy"]) = some (.file .torn)) :
    GridParams.load fs dir = .error .loadError := by
  rcases load_total fs dir with ⟨g, hg⟩ | h'
  · exfalso
    have := load_ok_hasGrid hg
    rcases h with h | h <;> rw [this.rfArray] at h <;> cases h
  · exact h'

/-- **C26 (partial)** If the directory held no grid before, then after a crash at any point of the
save (between two operations, or in the middle of a write) `load` gives the new grid or raises
`LoadError`.  Missing for the full claim: an older save in the directory, for which it is false
(`C26_false`). -/
theorem C26_crash_fresh_partial (fs : FS K) (g : GridParams K) (dir : Path) (hg : Consistent g)
    (hfresh : fs.at? (dir ++ ["rf_array.npy"]) = none) (k : ℕ) (tear : Bool) :
    GridParams.load (fs.crash (g.saveSteps dir) k tear) dir = .ok g ∨
    GridParams.load (fs.crash (g.saveSteps dir) k tear) dir = .error .loadError := by
  have hlen : (g.saveSteps dir).length = 5 := rfl
  have hpre : g.saveSteps dir = (g.saveSteps dir).take 4 ++
      [.write (dir ++ ["rf_array.npy"]) (.floats g.rfArray.shape g.rfArray.data)] := rfl
  have key : ∀ j ≤ 4, (fs.run ((g.saveSteps dir).take j)).2.at? (dir ++ ["rf_array.npy"]) = none := by
    intro j hj
    rw [FS.run_frame, hfresh]
    · intro d h; exact saveSteps_no_rmtree g dir d (List.mem_of_mem_take h)
    all_goals
      first | (intro b h; skip) | intro h
      have h4 : (g.saveSteps dir).take j = ((g.saveSteps dir).take 4).take j := by
        rw [List.take_take, min_eq_left hj]
      rw [h4] at h
      have := List.mem_of_mem_take h
      simp [GridParams.saveSteps] at this
  rcases Nat.lt_or_ge k 5 with hk | hk
  · right
    apply load_error_of
    unfold FS.crash
    simp only
    split_ifs with h1
    · split
      · rename_i p b hkp
        by_cases hp : p = dir ++ ["rf_array.npy"]
        · subst hp
          rcases FS.run_at? (fs.run ((g.saveSteps dir).take k)).2
            [.write (dir ++ ["rf_array.npy"]) .torn] (by simp) (dir ++ ["rf_array.npy"]) with
            h | ⟨b', hb, h⟩ | ⟨hm, -⟩
          · left; rw [h]; exact key k (by omega)
          · simp at hb; subst hb; right; exact h
          · simp at hm
        · left
          rw [FS.run_frame, key k (by omega)] <;> simp
          intro h; exact absurd h.symm hp
      · left; exact key k (by omega)
    · left; exact key k (by omega)
  · have htake : (g.saveSteps dir).take k = g.saveSteps dir := List.take_of_length_le (by omega)
    have hnone : (g.saveSteps dir)[k]? = none := List.getElem?_eq_none (by omega)
    have hc : fs.crash (g.saveSteps dir) k tear = (fs.run (g.saveSteps dir)).2 := by
      unfold FS.crash
      simp only [htake, hnone]
      split_ifs <;> rfl
    rw [hc]
    cases hr : fs.run (g.saveSteps dir) with
    | mk r fs' =>
      cases r with
      | ok u => left; exact C25_round_trip_partial fs fs' g dir hg hr
      | error e =>
        right
        apply load_error_of
        left
        rw [hpre, FS.run_append] at hr
        have k4 := key 4 (le_refl 4)
        cases hr4 : fs.run ((g.saveSteps dir).take 4) with
        | mk r4 f4 =>
          rw [hr4] at hr k4
          cases r4 with
          | error e' => cases hr; exact k4
          | ok u =>
            simp only [FS.run] at hr
            split at hr
            · cases hr
            · cases hr; exact k4

/-- **C26** In a directory that held a complete older save, a successful load after a crash returns
vectors each of which is the old or the new one: nothing else can appear. -/
theorem C26_crash_overwrite_mix (fs : FS K) (old new g : GridParams K) (dir : Path)
    (hold : HasGrid fs dir old) (k : ℕ) (tear : Bool)
    (h : GridParams.load (fs.crash (new.saveSteps dir) k tear) dir = .ok g) :
    (g.dx = old.dx ∨ g.dx = new.dx) ∧ (g.dy = old.dy ∨ g.dy = new.dy) ∧
    (g.rf = old.rf ∨ g.rf = new.rf) ∧ (g.rfArray = old.rfArray ∨ g.rfArray = new.rfArray) := by
  have hg := load_ok_hasGrid h
  have key : ∀ (f : String) (a b c : Nd K),
      fs.at? (dir ++ [f]) = some (.file (.floats a.shape a.data)) →
      (∀ x, Step.write (dir ++ [f]) x ∈ new.saveSteps dir → x = .floats b.shape b.data) →
      (fs.crash (new.saveSteps dir) k tear).at? (dir ++ [f]) = some (.file (.floats c.shape c.data)) →
      c = a ∨ c = b := by
    intro f a b c ha hb hc
    obtain ⟨s1, d1⟩ := a
    obtain ⟨s2, d2⟩ := b
    obtain ⟨s3, d3⟩ := c
    rcases crash_at? fs (new.saveSteps dir) (fun d => saveSteps_no_rmtree new dir d) k tear (dir ++ [f])
      with h | ⟨x, hx, h⟩ | ⟨x, hx, h⟩ | ⟨-, h⟩
    · rw [hc, ha] at h; left; simp_all
    · rw [hc] at h; have := hb x hx; right; simp_all
    · rw [hc] at h; simp at h
    · rw [ha] at h; cases h
  refine ⟨key "dx.npy" _ _ _ hold.dx ?_ hg.dx, key "dy.npy" _ _ _ hold.dy ?_ hg.dy,
    key "rf.npy" _ _ _ hold.rf ?_ hg.rf, key "rf_array.npy" _ _ _ hold.rfArray ?_ hg.rfArray⟩
  all_goals
    intro x hx
    simpa [GridParams.saveSteps] using hx

/-- **C26 is false** when an older save is overwritten: after a crash between two writes `load`
returns a grid that is neither the old nor the new one. -/
theorem C26_false : ∃ (old new g : GridParams ℚ) (fs : FS ℚ),
    Consistent old ∧ Consistent new ∧ FS.run [] (old.saveSteps ["d"]) = (.ok (), fs) ∧
    GridParams.load (fs.crash (new.saveSteps ["d"]) 2 false) ["d"] = .ok g ∧
    g.dx = new.dx ∧ g.dy = old.dy ∧ g.dx ≠ old.dx ∧ g.dy ≠ new.dy := by
  let old : GridParams ℚ := gridOf (.fin 0) (.fin 1) 2 (.fin 0) (.fin 1) 2 (.fin 2) 2
  let new : GridParams ℚ := gridOf (.fin 0) (.fin 1) 3 (.fin 0) (.fin 1) 3 (.fin 2) 2
  let fs := (FS.run [] (old.saveSteps ["d"])).2
  have h : ((GridParams.load (fs.crash (new.saveSteps ["d"]) 2 false) ["d"]).toOption.map fun g =>
      decide (g.dx = new.dx ∧ g.dy = old.dy ∧ g.dx ≠ old.dx ∧ g.dy ≠ new.dy)) = some true := by
    decide +kernel
  cases hl : GridParams.load (fs.crash (new.saveSteps ["d"]) 2 false) ["d"] with
  | error e => rw [hl] at h; cases h
  | ok g =>
    rw [hl] at h
    exact ⟨old, new, g, fs, gridOf_consistent _ _ _ _ _ _ (by norm_num) (by norm_num),
      gridOf_consistent _ _ _ _ _ _ (by norm_num) (by norm_num), by decide +kernel, hl,
      by simpa [Except.toOption] using h⟩

end Beyonce
