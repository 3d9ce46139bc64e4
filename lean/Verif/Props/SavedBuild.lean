import Verif.Props.ShallotLoad
import Verif.Props.BuildFrom

/-!
# Property C65: builds that save as they go and keep diagnostics
-/

set_option linter.unusedSectionVars false

namespace Beyonce
open Spec

section
variable {K : Type} [Field K] [LinearOrder K] [IsStrictOrderedRing K] [RealFns K] [FloorRing K]

/-- What a save to the temporary directory does. -/
theorem save_temp (fs : FS K) (h : Kinds tempDir fs) (s : Shallot K) (y : PyVal K) (hy : YRow s y) :
    ∃ fs', Kinds tempDir fs' ∧ fs.run (s.saveSteps .temp y) =
      (if s.diagnostics.isSome then .error .typeError else .ok (), fs') := by
  have hmk : fs.step (.mkdirIfMissing tempDir) = .ok fs := FS.step_mkdirIfMissing_exists h.dir
  obtain ⟨f1, h1, k1⟩ := kinds_top h _ (flat_top s tempDir y hy)
  obtain ⟨f2, h2, k2⟩ := kinds_gradients (s.gradients.getD []) k1
  refine ⟨f2, k2, ?_⟩
  rw [save_eq]
  show fs.run (Step.mkdirIfMissing tempDir :: (topSteps s tempDir y ++
      ((s.gradients.getD []).flatMap (fun g => g.saveSteps tempDir) ++ _))) = _
  rw [FS.run, hmk]
  simp only
  rw [FS.run_append, h1]
  simp only
  rw [FS.run_append, h2]
  split_ifs <;> rfl

theorem number_row (y n : ℕ) (h : y ≤ n) (v : PyVal K) (hv : IsInteger v y) :
    number v (.bool true) (.int 0) (.int n) = .ok v := by
  rw [show number v (.bool true) (.int 0) (.int n) =
    number v (.bool true) (.int 0) (.int n) (.bool false) from rfl, C01_number_ok_iff]
  refine ⟨rfl, .fin y, .fin 0, .fin n, Or.inl ⟨y, hv, by simp⟩, Or.inl ⟨0, .int 0, by simp⟩,
    Or.inl ⟨n, .int n, by simp⟩, ?_, ?_⟩
  · rw [less_iff]; simp
  · simp only [Violates, less_iff]
    simp [h]

theorem yrow_nat (s : Shallot K) (y : ℕ) (h : y ≤ s.params.dy.data.length) : YRow s (.int y) :=
  Or.inr (number_row y _ h _ (.int y))

/-- The directory for the intermittent saves is made anew. -/
theorem temp_new (fs : FS K) (hfs : Rooted fs) (ts : List (Step K)) :
    fs.run (Step.rmtreeIfExists tempDir :: Step.mkdir tempDir :: ts) =
      ((cleaned fs).put tempDir .dir).run ts ∧ Rooted (cleaned fs) ∧
    Kinds tempDir ((cleaned fs).put tempDir .dir) ∧
    ∀ l, l ≠ [] → ((cleaned fs).put tempDir .dir).at? (tempDir ++ l) = none := by
  have hr : Rooted (cleaned fs) := by
    have := rooted_run [Step.rmtreeIfExists tempDir] hfs
    exact this
  have hn : ∀ l, (cleaned fs).at? (tempDir ++ l) = none := by
    intro l
    rw [cleaned_at? fs hfs, if_pos (List.prefix_append _ _)]
  have hn0 := hn []
  rw [List.append_nil] at hn0
  refine ⟨?_, hr, kinds_new hr (by simp [tempDir]) hn0, ?_⟩
  · rw [FS.run]
    show FS.run (cleaned fs) (Step.mkdir tempDir :: ts) = _
    rw [FS.run]
    have : (cleaned fs).step (.mkdir tempDir) = .ok ((cleaned fs).put tempDir .dir) := by
      have hd : (cleaned fs).isDir tempDir.dropLast = true := rfl
      simp [FS.step, FS.mkdir, FS.exists?, hn0, hd]
    rw [this]
  · intro l hl
    rw [FS.at?_put, if_neg (by simpa using hl)]
    exact hn l

/-- The steps of a build that saves as it goes. -/
theorem trace_new (g : GridParams K) (hg : ShapedGrid g) (v : PyVal K) (keep : Bool) :
    Shallot.trace true 0 (Shallot.bare g v keep) = Step.rmtreeIfExists tempDir :: Step.mkdir tempDir ::
      (Shallot.rowsTrace true g.dy.data.length 0
        (emptyGrid g v (if keep then some (Diagnostics.new g) else none)) ++
          [Step.rmtreeIfExists tempDir]) := by
  unfold Shallot.trace
  rw [if_pos rfl, initialise_ok g hg]
  have : (emptyGrid g v (if keep then some (Diagnostics.new g) else none)).params.sliceShape.1 - 0 =
      g.dy.data.length := by
    show g.sliceShape.1 - 0 = _
    rw [hg.slice]; rfl
  simp only [this, if_true]
  rfl

/-- The first row of a build. -/
theorem first_row (g : GridParams K) (hg : ShapedGrid g) (hy : g.dy.data ≠ []) (v : PyVal K)
    (d0 : Option (Diagnostics K)) (hd0 : d0 = none ∨ d0 = some (Diagnostics.new g)) :
    ((∀ x, x < g.dx.data.length → Buildable g v.toInt.toNat 0 x) → ∃ d : Option (Diagnostics K),
      Shallot.buildRow 0 g.sliceShape.2 0 (emptyGrid g v d0) = (.ok (), upTo (emptyGrid g v d0) 1 0 d) ∧
      d.isSome = d0.isSome) ∧
    ((∃ x, x < g.dx.data.length ∧ ¬ Buildable g v.toInt.toNat 0 x) → ∃ e s',
      Shallot.buildRow 0 g.sliceShape.2 0 (emptyGrid g v d0) = (.error e, s')) := by
  have hup : emptyGrid g v d0 = upTo (emptyGrid g v d0) 0 0 d0 := by
    have hp : (emptyGrid g v d0).params = g := rfl
    unfold upTo
    simp only [hp, cubeTo_none]
    rfl
  have hdt : DiagnosticsTo (emptyGrid g v d0) 0 0 d0 := by
    rcases hd0 with rfl | rfl
    · rfl
    · refine ⟨by simp [emptyGrid, builtGrid], rfl, rfl, rfl, ?_⟩
      intro y' x' _ _ hb
      simp [before] at hb
  have hpos : 0 < g.dy.data.length := List.length_pos_iff.2 hy
  have hrow := buildRow_spec (emptyGrid g v d0) (helped_empty g hg v d0) 0 hpos g.dx.data.length 0 d0
    (by rw [Nat.zero_add]; exact le_rfl) hdt
  rw [Nat.zero_add, ← hup] at hrow
  rw [hg.slice]
  constructor
  · intro hall
    obtain ⟨d, h1, h2⟩ := hrow.1 (fun j _ hj => hall j hj)
    refine ⟨d, ?_, ?_⟩
    · rw [h1]
      exact congrArg _ (upTo_row (emptyGrid g v d0) 0 d)
    · cases d with
      | none =>
        have : d0 = none := h2
        rw [this]
      | some d =>
        have : d0 ≠ none := h2.1
        obtain ⟨d1, rfl⟩ := Option.ne_none_iff_exists'.1 this
        rfl
  · rintro ⟨x, h1, h2⟩
    obtain ⟨e, s', h, -⟩ := hrow.2 ⟨x, by omega, h1, h2⟩
    exact ⟨e, s', h⟩

/-- **C65** A build that keeps diagnostics and saves as it goes never succeeds: the first row raises,
or else the save after it raises `TypeError`. -/
theorem C65_false_build (minX maxX numX minY maxY numY maxRf numRf : PyVal K) (g : GridParams K)
    (hg : GridParams.new minX maxX numX minY maxY numY maxRf numRf = .ok g) (v k saving : PyVal K)
    (n : ℕ) (hn : Count v n) (hk : boolean k = .ok true) (hsv : boolean saving = .ok true)
    (fs : FS K) (hfs : Rooted fs) : ∃ e fs', Shallot.newIn v k saving g fs = (.error e, fs') ∧
      ((∀ x, x < g.dx.data.length → Buildable g n 0 x) → e = .typeError ∧
        fs'.at? tempDir = some .dir) := by
  have hs := shapedGrid_new _ _ _ _ _ _ _ _ _ hg
  have hc := new_consistent hg
  have hnum : number v (.bool true) (.int 1) = .ok v := (number_count v v).2 ⟨rfl, n, hn⟩
  obtain ⟨m, hm⟩ : ∃ m, g.dy.data.length = m + 1 :=
    Nat.exists_eq_succ_of_ne_zero (fun h => hc.dy (List.length_eq_zero_iff.1 h))
  have hrow := first_row g hs hc.dy v (some (Diagnostics.new g)) (Or.inr rfl)
  rw [count_toInt hn] at hrow
  obtain ⟨h1, -, hk1, -⟩ := temp_new fs hfs (Shallot.rowsTrace true g.dy.data.length 0
    (emptyGrid g v (some (Diagnostics.new g))) ++ [Step.rmtreeIfExists tempDir])
  have hrun : ∃ e fs', fs.run (Shallot.trace true 0 (Shallot.bare g v true)) = (.error e, fs') ∧
      ((∀ x, x < g.dx.data.length → Buildable g n 0 x) → e = .typeError ∧
        fs'.at? tempDir = some .dir) := by
    rw [trace_new g hs, if_pos rfl, h1, hm]
    unfold Shallot.rowsTrace
    have hp : (emptyGrid g v (some (Diagnostics.new g))).params.sliceShape.2 = g.sliceShape.2 := rfl
    rw [hp]
    by_cases hall : ∀ x, x < g.dx.data.length → Buildable g n 0 x
    · obtain ⟨d, h2, h3⟩ := hrow.1 hall
      rw [h2]
      simp only [if_true]
      obtain ⟨fs', k2, h4⟩ := save_temp _ hk1 (upTo (emptyGrid g v (some (Diagnostics.new g))) 1 0 d)
        (.int (0 : ℕ)) (yrow_nat _ 0 (Nat.zero_le _))
      have hdd : (upTo (emptyGrid g v (some (Diagnostics.new g))) 1 0 d).diagnostics = d := rfl
      rw [hdd, h3] at h4
      refine ⟨.typeError, fs', ?_, fun _ => ⟨rfl, k2.dir⟩⟩
      rw [List.append_assoc, FS.run_append, h4]
      rfl
    · have hne := hall
      push Not at hne
      obtain ⟨e, s', h2⟩ := hrow.2 hne
      rw [h2]
      exact ⟨e, _, rfl, fun h => absurd h hall⟩
  obtain ⟨e, fs', h2, h3⟩ := hrun
  refine ⟨e, fs', ?_, h3⟩
  unfold Shallot.newIn
  rw [hnum]
  simp only
  rw [hk]
  simp only
  rw [hsv]
  simp only
  unfold Shallot.buildIn
  rw [h2]

end

/-- The grid that `load` makes first cannot be built with diagnostics and intermittent saving. -/
example : ∃ fs', Shallot.newIn (.int 100) (.bool true) (.bool true) throwAway ([] : FS ℝ) =
    (.error .typeError, fs') := by
  obtain ⟨e, fs', h1, h2⟩ := C65_false_build _ _ _ _ _ _ _ _ throwAway throwAway_new (.int 100)
    (.bool true) (.bool true) 100 count_hundred rfl rfl _ rooted_nil
  obtain ⟨rfl, -⟩ := h2 (fun x hx => throwAway_buildable 0 x (by decide)
    (by rwa [throwAway_length.1] at hx))
  exact ⟨fs', h1⟩

end Beyonce
