import Verif.Props.Resume

/-!
# Property C63: when an interrupted build can be resumed
-/

set_option linter.unusedSectionVars false

namespace Beyonce
open Spec

section
variable {K : Type} [Field K] [LinearOrder K] [IsStrictOrderedRing K] [RealFns K] [FloorRing K]

/-! ## A complete set of files -/

/-- Every file of a save is there and none is torn. -/
def Full (c : String → Option (Node K)) : Prop :=
  ∀ f ∈ "y_value.npy" :: namesOf false false false false false false,
    ∃ b, c f = some (.file b) ∧ b ≠ .torn

theorem npArray_ne_torn (l : List (PyVal K)) : GGrad.npArray l ≠ .torn := by
  unfold GGrad.npArray
  split_ifs <;> simp

theorem topFiles_ne_torn (s : Shallot K) (y : PyVal K) (e : String × Blob K) (h : e ∈ topFiles s y) :
    e.2 ≠ .torn := by
  have hp : ∀ p : GProp K, ∀ e ∈ propFiles p, e.2 ≠ .torn := by
    intro p e he
    unfold propFiles at he
    cases hm : p.mask <;> rw [hm] at he <;> simp at he
    · rw [he]; simp
    · rcases he with rfl | rfl <;> simp
  unfold topFiles at h
  rcases List.mem_append.1 h with h | h
  · unfold rowFile at h
    split_ifs at h
    · cases h
    · simp at h; rw [h]; exact npArray_ne_torn _
  · rcases List.mem_cons.1 h with rfl | h
    · exact npArray_ne_torn _
    · rcases List.mem_append.1 h with h | h
      · simp only [gridFiles, List.mem_cons, List.not_mem_nil, or_false] at h
        rcases h with rfl | rfl | rfl | rfl <;> simp
      · obtain ⟨p, -, h⟩ := List.mem_flatMap.1 h
        exact hp p e h

/-- A complete set of files stays complete while a save replaces them one by one. -/
theorem full_crash (s : Shallot K) (hs : Tidy s) (y : PyVal K) (hy : YRow s y) (fs : FS K)
    (ss : List (Step K)) (hss : ∀ t ∈ ss, t ∈ s.saveSteps .temp y)
    (h : Full fun f => fs.at? (tempDir ++ [f])) (j : ℕ) :
    Full fun f => (fs.crash ss j false).at? (tempDir ++ [f]) := by
  intro f hf
  obtain ⟨b, h1, h2⟩ := h f hf
  simp only at h1
  have hc : fs.crash ss j false = (fs.run (ss.take j)).2 := by unfold FS.crash; simp
  have hno : ∀ d, Step.rmtreeIfExists d ∉ ss.take j :=
    fun d hd => save_no_rmtree s .temp y d (hss _ (List.mem_of_mem_take hd))
  simp only [hc]
  rcases FS.run_at? fs _ hno (tempDir ++ [f]) with h' | ⟨b', hb, h'⟩ | ⟨-, h', -⟩
  · exact ⟨b, h'.trans h1, h2⟩
  · exact ⟨b', h', topFiles_ne_torn s y (f, b')
      ((mem_save_steps s hs .temp y hy f b').1 (hss _ (List.mem_of_mem_take hb)))⟩
  · rw [h1] at h'; cases h'

theorem names_top (g : GridParams K) (hg : ShapedGrid g) (hc : Consistent g) (v : PyVal K) (k y : ℕ)
    (f : String) (hf : f ∈ "y_value.npy" :: namesOf false false false false false false) :
    ∃ b, (f, b) ∈ topFiles (rowsDone g v k) (.int y) := by
  rw [← rowsDone_names g hg hc v k] at hf
  rw [rowsDone_top]
  rcases List.mem_cons.1 hf with rfl | hf
  · exact ⟨_, List.mem_cons_self ..⟩
  · obtain ⟨⟨f', b⟩, hb, rfl⟩ := List.mem_map.1 hf
    exact ⟨b, List.mem_cons_of_mem _ hb⟩

/-- A save that is not interrupted leaves a complete set. -/
theorem full_run (g : GridParams K) (hg : ShapedGrid g) (hc : Consistent g) (v : PyVal K) (k y : ℕ)
    (hy : y ≤ g.dy.data.length) (fs fs' : FS K)
    (h : fs.run ((rowsDone g v k).saveSteps .temp (.int y)) = (.ok (), fs')) :
    Full fun f => fs'.at? (tempDir ++ [f]) := by
  intro f hf
  obtain ⟨b, hb⟩ := names_top g hg hc v k y f hf
  exact ⟨b, save_files (rowsDone g v k) (rowsDone_tidy g hg hc v k) .temp (.int y) (yrow_nat _ y hy) h
    f b hb, topFiles_ne_torn _ _ _ hb⟩

/-- The steps of a save before its last new file. -/
def untilLast (s : Shallot K) (y : PyVal K) : List (Step K) :=
  .mkdirIfMissing tempDir :: (s.yValueSteps tempDir y ++
   .write (tempDir ++ ["num_fxfy.npy"]) (GGrad.npArray [s.numFxfy]) ::
   (s.params.saveSteps tempDir ++
    (s.diskRadius.saveSteps tempDir ++
     (s.inclination.saveSteps tempDir ++
      (s.tilt.saveSteps tempDir ++
       (s.fxMap.saveSteps tempDir ++ [.mkdirIfMissing tempDir]))))))

theorem untilLast_eq (g : GridParams K) (v : PyVal K) (k : ℕ) (y : PyVal K) :
    (rowsDone g v k).saveSteps .temp y = untilLast (rowsDone g v k) y ++
      .write (tempDir ++ ["FY_MAP_NONE.npy"]) (.floats (rowsDone g v k).fyMap.data.shape
        (rowsDone g v k).fyMap.data.data) :: g.saveSteps tempDir := by
  have e : (rowsDone g v k).fyMap.saveSteps tempDir = .mkdirIfMissing tempDir ::
      .write (tempDir ++ ["FY_MAP_NONE.npy"]) (.floats (rowsDone g v k).fyMap.data.shape
        (rowsDone g v k).fyMap.data.data) :: g.saveSteps tempDir := by
    have e5 : GProp.fileName .fyMap .none = "FY_MAP_NONE" := by decide
    show [_, Step.write (tempDir ++ [GProp.fileName .fyMap .none ++ ".npy"]) _] ++ [] ++ _ = _
    rw [e5]
    rfl
  unfold Shallot.saveSteps untilLast
  have hd : (rowsDone g v k).diagnostics.isSome = false := rfl
  have hgr : (rowsDone g v k).gradients.getD [] = [] := rfl
  rw [hd, hgr, DirArg.path]
  simp only [e, List.flatMap_nil, Bool.false_eq_true, if_false, List.append_nil, List.cons_append,
    List.append_assoc, List.nil_append]

theorem mem_untilLast (g : GridParams K) (hg : ShapedGrid g) (hc : Consistent g) (v : PyVal K) (k y : ℕ)
    (hy : y ≤ g.dy.data.length) (f : String) (b : Blob K) :
    Step.write (tempDir ++ [f]) b ∈ untilLast (rowsDone g v k) (.int y) ↔
      (f, b) ∈ topFiles (rowsDone g v k) (.int y) ∧ f ≠ "FY_MAP_NONE.npy" := by
  have ht := rowsDone_tidy g hg hc v k
  have hsave := mem_save_steps (rowsDone g v k) ht .temp (.int y) (yrow_nat _ y hy) f b
  have hlast : (f, b) ∈ topFiles (rowsDone g v k) (.int y) → f = "FY_MAP_NONE.npy" → b =
      .floats (rowsDone g v k).fyMap.data.shape (rowsDone g v k).fyMap.data.data := by
    intro h e
    subst e
    exact topFiles_unique _ ht (.int y) _ _ _
      (top_of_five (rowsDone g v k) (.int y) (rowsDone g v k).fyMap (by simp [five])) h
  have hnew : ∀ (p : GProp K) (n : PropName) (u : PropUnit), p.name = n ∧ p.unit = u ∧ p.mask = none ∧
      p.params = g → GProp.fileName n u ++ ".npy" ≠ "FY_MAP_NONE.npy" →
      Step.write (tempDir ++ [f]) b ∈ p.saveSteps tempDir → f ≠ "FY_MAP_NONE.npy" := by
    rintro p n u ⟨rfl, rfl, hm, hp⟩ hne h
    rw [mem_prop_steps] at h
    unfold propFiles at h
    rw [hm, hp] at h
    rcases h with h | h
    · simp only [List.mem_cons, List.not_mem_nil, or_false, Prod.mk.injEq] at h
      rw [h.1]; exact hne
    · simp only [gridFiles, List.mem_cons, List.not_mem_nil, or_false, Prod.mk.injEq] at h
      rcases h with ⟨rfl, -⟩ | ⟨rfl, -⟩ | ⟨rfl, -⟩ | ⟨rfl, -⟩ <;> decide
  constructor
  · intro h
    refine ⟨hsave.1 (by rw [untilLast_eq]; exact List.mem_append_left _ h), ?_⟩
    unfold untilLast at h
    rw [yValueSteps_ok _ _ _ (by simp) (number_row y _ hy _ (.int y))] at h
    simp only [List.mem_cons, List.mem_append, List.not_mem_nil, or_false] at h
    rcases h with h | h | h | h | h | h | h | h | h
    · cases h
    · simp at h; rw [h.1]; decide
    · simp at h; rw [h.1]; decide
    · rw [mem_params_steps] at h
      simp only [gridFiles, List.mem_cons, List.not_mem_nil, or_false, Prod.mk.injEq] at h
      rcases h with ⟨rfl, -⟩ | ⟨rfl, -⟩ | ⟨rfl, -⟩ | ⟨rfl, -⟩ <;> decide
    · exact hnew _ .diskRadius .eclipseDuration ⟨rfl, rfl, rfl, rfl⟩ (by decide) h
    · exact hnew _ .inclination .degree ⟨rfl, rfl, rfl, rfl⟩ (by decide) h
    · exact hnew _ .tilt .degree ⟨rfl, rfl, rfl, rfl⟩ (by decide) h
    · exact hnew _ .fxMap .none ⟨rfl, rfl, rfl, rfl⟩ (by decide) h
    · cases h
  · rintro ⟨h, hne⟩
    have := hsave.2 h
    rw [untilLast_eq, List.mem_append, List.mem_cons] at this
    rcases this with h | h | h
    · exact h
    · simp at h
      exact absurd h.1.2 hne
    · unfold untilLast
      have h' : Step.write (tempDir ++ [f]) b ∈ (rowsDone g v k).params.saveSteps tempDir := h
      simp only [List.mem_cons, List.mem_append]
      tauto

/-- Once the last file of the first save is there, so are all the others. -/
theorem first_full (g : GridParams K) (hg : ShapedGrid g) (hc : Consistent g) (v : PyVal K) (k y : ℕ)
    (hy : y ≤ g.dy.data.length) (fs : FS K) (h : Mid g v 0 fs) (j : ℕ)
    (hl : (fs.crash ((rowsDone g v k).saveSteps .temp (.int y)) j false).at?
      (tempDir ++ ["FY_MAP_NONE.npy"]) ≠ none) :
    Full fun f => (fs.crash ((rowsDone g v k).saveSteps .temp (.int y)) j false).at? (tempDir ++ [f]) := by
  have ht := rowsDone_tidy g hg hc v k
  have hyr := yrow_nat (rowsDone g v k) y hy
  obtain ⟨A, hA⟩ : ∃ A, A = untilLast (rowsDone g v k) (.int y) := ⟨_, rfl⟩
  obtain ⟨w, hw⟩ : ∃ w, w = Step.write (tempDir ++ ["FY_MAP_NONE.npy"])
    (.floats (rowsDone g v k).fyMap.data.shape (rowsDone g v k).fyMap.data.data) := ⟨_, rfl⟩
  have heq : (rowsDone g v k).saveSteps .temp (.int y) = (A ++ [w]) ++ g.saveSteps tempDir := by
    rw [untilLast_eq, hA, hw]; simp
  have hmem := fun f b => mem_untilLast g hg hc v k y hy f b
  have hsub : ∀ t ∈ A, t ∈ (rowsDone g v k).saveSteps .temp (.int y) := by
    intro t ht; rw [heq]; simp [ht]
  have hcr : ∀ ss : List (Step K), fs.crash ss j false = (fs.run (ss.take j)).2 := by
    intro ss; unfold FS.crash; simp
  have hflatA : FlatIn PlainName tempDir A := by
    rw [hA]
    unfold untilLast
    have h0 : FlatIn PlainName tempDir ([.mkdirIfMissing tempDir] : List (Step K)) := by
      intro s hs; simp at hs; exact Or.inl hs
    have hy0 : FlatIn PlainName tempDir ((rowsDone g v k).yValueSteps tempDir (.int y)) := by
      rw [yValueSteps_ok _ _ _ (by simp) (number_row y _ hy _ (.int y))]
      intro s hs
      simp at hs
      exact Or.inr ⟨_, _, hs, by decide⟩
    have hn : FlatIn PlainName tempDir ([.write (tempDir ++ ["num_fxfy.npy"])
        (GGrad.npArray [(rowsDone g v k).numFxfy])] : List (Step K)) := by
      intro s hs
      simp at hs
      exact Or.inr ⟨_, _, hs, by decide⟩
    have := h0.append (hy0.append (hn.append ((flat_params (rowsDone g v k).params tempDir).append
      ((flat_prop (rowsDone g v k).diskRadius tempDir).append
      ((flat_prop (rowsDone g v k).inclination tempDir).append
      ((flat_prop (rowsDone g v k).tilt tempDir).append
      ((flat_prop (rowsDone g v k).fxMap tempDir).append h0)))))))
    simpa using this
  obtain ⟨f1, r1, k1⟩ := kinds_top h.kinds A hflatA
  have hall1 : ∀ f ∈ "y_value.npy" :: namesOf false false false false false false,
      f ≠ "FY_MAP_NONE.npy" → ∃ b, f1.at? (tempDir ++ [f]) = some (.file b) ∧ b ≠ .torn := by
    intro f hf hne
    obtain ⟨b, hb⟩ := names_top g hg hc v k y f hf
    refine ⟨b, run_agree A hflatA.no_rmtree ?_ (Or.inr ?_) r1, topFiles_ne_torn _ _ _ hb⟩
    · intro b' hb'
      rw [hA] at hb'
      exact topFiles_unique _ ht _ _ _ _ hb ((hmem f b').1 hb').1
    · rw [hA]
      exact (hmem f b).2 ⟨hb, hne⟩
  by_cases hj : j ≤ A.length
  · refine absurd ?_ hl
    have htake : ((rowsDone g v k).saveSteps .temp (.int y)).take j = A.take j := by
      rw [heq, List.append_assoc, List.take_append_of_le_length hj]
    rw [hcr, htake]
    rcases FS.run_at? fs (A.take j) (fun d hd => hflatA.no_rmtree d (List.mem_of_mem_take hd))
      (tempDir ++ ["FY_MAP_NONE.npy"]) with h' | ⟨b, hb, -⟩ | ⟨hm, -⟩
    · rw [h', h.none rfl]
    · have := List.mem_of_mem_take hb
      rw [hA] at this
      exact absurd rfl ((hmem _ _).1 this).2
    · have hm' := hm.imp List.mem_of_mem_take List.mem_of_mem_take
      obtain ⟨-, m1, m2⟩ := flat_paths hflatA (tempDir ++ ["FY_MAP_NONE.npy"])
      rcases hm' with hm' | hm'
      · exact absurd hm' m1
      · have := m2 hm'
        simp at this
  · have hstep : f1.step w = .ok (f1.put (tempDir ++ ["FY_MAP_NONE.npy"])
        (.file (.floats (rowsDone g v k).fyMap.data.shape (rowsDone g v k).fyMap.data.data))) := by
      rw [hw]
      exact FS.step_write_ok _ (FS.isDir_iff.2 (Or.inr k1.dir)) (k1.top _ (by decide))
    obtain ⟨f2, hf2⟩ : ∃ f2, f2 = f1.put (tempDir ++ ["FY_MAP_NONE.npy"])
      (.file (.floats (rowsDone g v k).fyMap.data.shape (rowsDone g v k).fyMap.data.data)) := ⟨_, rfl⟩
    have r2 : fs.run (A ++ [w]) = (.ok (), f2) := by
      rw [FS.run_append, r1]
      simp only [FS.run, hstep, hf2]
    have hfull2 : Full fun f => f2.at? (tempDir ++ [f]) := by
      intro f hf
      simp only
      by_cases hne : f = "FY_MAP_NONE.npy"
      · subst hne
        exact ⟨_, by rw [hf2]; simp; rfl, by simp⟩
      · obtain ⟨b, h1, h2⟩ := hall1 f hf hne
        refine ⟨b, ?_, h2⟩
        rw [hf2, FS.at?_put, if_neg (by simpa using hne), h1]
    obtain ⟨i, hi⟩ : ∃ i, j = (A ++ [w]).length + i := ⟨j - (A.length + 1), by simp; omega⟩
    rw [heq, hi, crash_append fs f2 _ _ r2]
    exact full_crash (rowsDone g v k) ht (.int y) hyr f2 _
      (fun t ht => by rw [heq]; exact List.mem_append_right _ ht) hfull2 i

/-- Wherever the rows are interrupted between two file operations. -/
theorem rows_full (g : GridParams K) (hg : ShapedGrid g) (hc : Consistent g) (v : PyVal K) :
    ∀ (n y : ℕ) (fs : FS K), y + n = g.dy.data.length → Mid g v y fs →
    (0 < y → Full fun f => fs.at? (tempDir ++ [f])) → ∀ (j : ℕ),
    (fs.crash (Shallot.rowsTrace true n y (rowsDone g v y) ++
      [.rmtreeIfExists tempDir]) j false).at? (tempDir ++ ["FY_MAP_NONE.npy"]) ≠ none →
    Full fun f => (fs.crash (Shallot.rowsTrace true n y (rowsDone g v y) ++
      [.rmtreeIfExists tempDir]) j false).at? (tempDir ++ [f]) := by
  intro n
  have hsame : ∀ (y : ℕ) (fs : FS K), Mid g v y fs → (0 < y → Full fun f => fs.at? (tempDir ++ [f])) →
      fs.at? (tempDir ++ ["FY_MAP_NONE.npy"]) ≠ none → Full fun f => fs.at? (tempDir ++ [f]) := by
    intro y fs h hf hl
    rcases Nat.eq_zero_or_pos y with hy | hy
    · exact absurd (h.none hy _) hl
    · exact hf hy
  induction n with
  | zero =>
    intro y fs hy h hf j hl
    obtain rfl : y = g.dy.data.length := by omega
    rw [rowsTrace_zero g hg, List.nil_append] at hl ⊢
    cases j with
    | zero =>
      have : fs.crash [Step.rmtreeIfExists tempDir] 0 false = fs := rfl
      rw [this] at hl ⊢
      exact hsame _ fs h hf hl
    | succ j =>
      have : fs.crash [Step.rmtreeIfExists tempDir] (j + 1) false = cleaned fs := by
        unfold FS.crash
        rw [List.take_of_length_le (by simp), List.getElem?_eq_none (by simp)]
        rfl
      rw [this, cleaned_at? fs h.rooted, if_pos (List.prefix_append _ _)] at hl
      exact absurd rfl hl
  | succ n ih =>
    intro y fs hy h hf j hl
    have hlt : y < g.dy.data.length := by omega
    have hrow := rowsDone_row g hg v y hlt
    unfold Shallot.rowsTrace at hl ⊢
    by_cases hall : ∀ j, j < g.dx.data.length → Buildable g v.toInt.toNat y j
    · rw [hrow.1 hall] at hl ⊢
      simp only [if_true] at hl ⊢
      rw [List.append_assoc] at hl ⊢
      obtain ⟨fs', h1, h2⟩ := mid_run g hg hc v y fs h hlt hall
      by_cases hj : j < ((rowsDone g v (y + 1)).saveSteps .temp (.int y)).length
      · rw [crash_before _ _ _ _ hj] at hl ⊢
        rcases Nat.eq_zero_or_pos y with h0 | h0
        · subst h0
          exact first_full g hg hc v _ _ hlt.le fs h j hl
        · exact full_crash _ (rowsDone_tidy g hg hc v (y + 1)) _ (yrow_nat _ y hlt.le) fs _
            (fun t ht => ht) (hf h0) j
      · obtain ⟨i, rfl⟩ : ∃ i, j = ((rowsDone g v (y + 1)).saveSteps .temp (.int y)).length + i :=
          ⟨j - ((rowsDone g v (y + 1)).saveSteps .temp (.int y)).length, by omega⟩
        rw [crash_append _ _ _ _ h1] at hl ⊢
        exact ih (y + 1) fs' (by omega) h2 (fun _ => full_run g hg hc v _ _ hlt.le _ _ h1) i hl
    · push Not at hall
      obtain ⟨e, s', h1⟩ := hrow.2 hall
      rw [h1] at hl ⊢
      simp only at hl ⊢
      have hcr : ∀ j, fs.crash ([Step.raise e] ++ [Step.rmtreeIfExists tempDir]) j false = fs := by
        intro j
        cases j with
        | zero => rfl
        | succ j =>
          have := crash_error fs fs e [Step.raise e] [.rmtreeIfExists tempDir] rfl j false
          rwa [show ([Step.raise e] : List (Step K)).length + j = j + 1 by simp [Nat.add_comm]] at this
      rw [hcr] at hl ⊢
      exact hsame y fs h hf hl

theorem trace_full (g : GridParams K) (hg : ShapedGrid g) (hc : Consistent g) (v : PyVal K)
    (fs : FS K) (hfs : Rooted fs) (j : ℕ) (hj : 1 ≤ j)
    (hl : (fs.crash (Shallot.trace true 0 (Shallot.bare g v false)) j false).at?
      (tempDir ++ ["FY_MAP_NONE.npy"]) ≠ none) :
    Full fun f => (fs.crash (Shallot.trace true 0 (Shallot.bare g v false)) j false).at?
      (tempDir ++ [f]) := by
  have htr := trace_new g hg v false
  rw [if_neg (by simp), ← rowsDone_zero] at htr
  rw [htr] at hl ⊢
  obtain ⟨ts, hts⟩ : ∃ ts, ts = Shallot.rowsTrace true g.dy.data.length 0 (rowsDone g v 0) ++
    [Step.rmtreeIfExists tempDir] := ⟨_, rfl⟩
  rw [← hts] at hl ⊢
  by_cases h1 : j = 1
  · subst h1
    have : fs.crash (Step.rmtreeIfExists tempDir :: Step.mkdir tempDir :: ts) 1 false = cleaned fs := rfl
    rw [this, cleaned_at? fs hfs, if_pos (List.prefix_append _ _)] at hl
    exact absurd rfl hl
  · obtain ⟨i, rfl⟩ : ∃ i, j = ([Step.rmtreeIfExists tempDir, Step.mkdir tempDir] : List (Step K)).length + i :=
      ⟨j - 2, by simp; omega⟩
    have hr := (temp_new fs hfs []).1
    have := crash_append fs _ [Step.rmtreeIfExists tempDir, Step.mkdir tempDir] ts hr i false
    rw [List.cons_append, List.cons_append, List.nil_append] at this
    rw [this, hts] at hl ⊢
    exact rows_full g hg hc v _ 0 _ (by omega) (mid_start g v fs hfs) (by omega) i hl

/-! ## Going on succeeds -/

theorem rowsTrace_ahead (g : GridParams K) (s : Shallot K) (hs : Helped s) (hb : Bare g s)
    (m : Cube → ℕ) : ∀ (n y : ℕ) (fs : FS K), y + n = g.dy.data.length → Kinds tempDir fs →
    (∀ i j, y ≤ i → i < g.dy.data.length → j < g.dx.data.length →
      Buildable g s.numFxfy.toInt.toNat i j) →
    ∃ fs', fs.run (Shallot.rowsTrace true n y (aheadOf s m y 0)) = (.ok (), fs') := by
  intro n
  induction n with
  | zero =>
    intro y fs hy _ _
    obtain rfl : y = g.dy.data.length := by omega
    obtain ⟨dm, h⟩ := recolor_ahead g s hs hb m
    unfold Shallot.rowsTrace
    rw [h]
    exact ⟨fs, rfl⟩
  | succ n ih =>
    intro y fs hy hk hall
    have hp := hb.params
    have hrow := (wholeRow_ahead s hs hb.nothing.1 m y (by rw [hp]; omega)).1
      (fun j hj => by rw [hp] at hj ⊢; exact hall y j le_rfl (by omega) hj)
    unfold Shallot.rowsTrace
    rw [hrow]
    simp only [if_true]
    have hyr : YRow (aheadOf s m (y + 1) 0) (.int y) := by
      refine yrow_nat _ y ?_
      show y ≤ s.params.dy.data.length
      rw [hp]; omega
    obtain ⟨fs', k', hr⟩ := save_temp fs hk (aheadOf s m (y + 1) 0) (.int y) hyr
    have hd : (aheadOf s m (y + 1) 0).diagnostics = none := hb.nothing.1
    rw [hd] at hr
    rw [FS.run_append, hr]
    simp only [Option.isSome_none, Bool.false_eq_true, if_false]
    exact ih (y + 1) fs' (by omega) k' (fun i j hi => hall i j (by omega))

theorem trace_from (g : GridParams K) (hg : ShapedGrid g) (s : Shallot K) (hs : Helped s) (hb : Bare g s)
    (m : Cube → ℕ) (y : ℕ) (hy : y ≤ g.dy.data.length) (he : s = aheadOf s m y 0)
    (hall : ∀ i j, y ≤ i → i < g.dy.data.length → j < g.dx.data.length →
      Buildable g s.numFxfy.toInt.toNat i j) (fs : FS K) (hfs : Rooted fs) :
    ∃ fs', fs.run (Shallot.trace true y s) = (.ok (), fs') := by
  obtain ⟨s1, m1, h1, h2, h3, h4, h5⟩ : ∃ (s1 : Shallot K) (m1 : Cube → ℕ),
      (if y = 0 then Shallot.initialise s else (Except.ok (), s)) = (.ok (), s1) ∧
      s1 = aheadOf s1 m1 y 0 ∧ s1.numFxfy = s.numFxfy ∧ Helped s1 ∧ Bare g s1 := by
    by_cases h0 : y = 0
    · subst h0
      obtain ⟨s1, q1, q2, q3, q4, q5, q6, q7, q8⟩ := initialise_any s hs.shaped hb.nothing.1
      exact ⟨s1, fun _ => 0, by rw [if_pos rfl, q1], q2, q3,
        ⟨by rw [q4]; exact hs.shaped, by rw [q5, q4]; exact hs.radius, by rw [q6, q4]; exact hs.shear⟩,
        q8 g hb⟩
    · exact ⟨s, m, by rw [if_neg h0], he, rfl, hs, hb⟩
  have e1 : s1.params.sliceShape.1 = g.dy.data.length := by rw [h5.params, hg.slice]
  obtain ⟨t1, t2, t3, -⟩ := temp_new fs hfs (Shallot.rowsTrace true (g.dy.data.length - y) y s1 ++
    [Step.rmtreeIfExists tempDir])
  have hrt := rowsTrace_ahead g s1 h4 h5 m1 (g.dy.data.length - y) y _ (by omega) t3
    (by rw [h3]; exact hall)
  rw [← h2] at hrt
  obtain ⟨fs', hr⟩ := hrt
  refine ⟨cleaned fs', ?_⟩
  unfold Shallot.trace
  rw [h1]
  simp only [if_true, e1, List.cons_append, List.nil_append]
  rw [t1, FS.run_append, hr]
  rfl

/-- Reading a complete set of files succeeds. -/
theorem readInto_full (g : GridParams K) (hg : ShapedGrid g) (hc : Consistent g)
    (hdy : g.dy.shape.headD 0 = g.dy.data.length) (v : PyVal K)
    (n : ℤ) (hv : IsInteger v n) (hb : ∀ b, v ≠ .bool b) (t : Shallot K) (ht : t.diagnostics = none ∧
      t.gradientFit = none ∧ t.eclipseDuration = none ∧ t.velocity = none ∧ t.limb = none)
    (d : Path) (fs : FS K) (hfs : Rooted fs) (hp : Partial g v fun f => fs.at? (d ++ [f]))
    (hfull : Full fun f => fs.at? (d ++ [f]))
    (hall : ∀ i j, i < g.dy.data.length → j < g.dx.data.length → Buildable g v.toInt.toNat i j)
    (u : Shallot K) (hu : Shallot.finish (builtGrid g v none) = .ok u) :
    ∃ fs', readInto d t fs = (.ok { u with numFxfy := reread v }, fs') := by
  obtain ⟨yb, hy1, hy2⟩ := hfull "y_value.npy" (List.mem_cons_self ..)
  simp only at hy1
  have hread : Readable fs d := by
    intro f hf
    obtain ⟨b, h1, h2⟩ := hfull f (List.mem_cons_of_mem _ hf)
    exact ⟨b, FS.load_eq_ok h1 h2⟩
  rcases hp.row with ⟨h1, -⟩ | h1 | ⟨y, hy, h1, h2, h3⟩
  · rw [hy1] at h1; cases h1
  · rw [hy1] at h1
    exact absurd (by simpa using h1) hy2
  · obtain ⟨m, hm, hst⟩ := rest_stored hg hc h2 hread
    have hext : (fs.listdir d).all hasExtension = true := by
      rw [List.all_eq_true]
      intro f hf
      rw [mem_listdir] at hf
      by_cases hyv : f = "y_value.npy"
      · subst hyv; decide
      · by_contra hne
        refine hf (rest_none hg hc h2 hyv fun hin => hne ?_)
        have : ∀ f ∈ namesOf false false false false false false, hasExtension f = true := by decide
        exact this f hin
    have hs1 := loadAttributes_stored hst n hv t
    rw [if_pos hext] at hs1
    obtain ⟨H, hH⟩ : ∃ H, H = Shallot.helpers (takeOver (aheadOf (emptyGrid g v none) m y 0) t) :=
      ⟨_, rfl⟩
    obtain ⟨hr1, hr2⟩ := reread_toInt v n hv hb
    obtain ⟨Hp, Hn, Hs, Hb, He⟩ := taken_over g hg v n hv hb t ht m y H hH
    have hall' : ∀ i j, y ≤ i → i < g.dy.data.length → j < g.dx.data.length →
        Buildable g H.numFxfy.toInt.toNat i j := by
      intro i j _ hi hj
      rw [Hn, hr2]
      exact hall i j hi hj
    obtain ⟨dm, hbuild⟩ := (build_from g hg H Hs Hb m y hy He).1 hall'
    obtain ⟨fs', htr⟩ := trace_from g hg H Hs Hb m y hy He hall' fs hfs
    have hnum : number (reread (.int (y : ℤ)) : PyVal K) (.bool true) (.int 0)
        (.int (H.params.dy.shape.headD 0 : ℕ)) = .ok (.npInt .w64 (y : ℤ)) := by
      rw [Hp, hdy]
      exact number_row y _ hy _ (.npInt .w64 y)
    have hex : fs.exists? (d ++ ["y_value.npy"]) = true := by unfold FS.exists?; rw [h1]; rfl
    refine ⟨fs', ?_⟩
    unfold readInto
    rw [hs1]
    simp only
    unfold Shallot.resume
    rw [if_pos hex, loadScalar_int (.int (y : ℤ)) h1, ← hH]
    simp only
    rw [hnum]
    simp only
    rw [show (PyVal.npInt (K := K) .w64 (y : ℤ)).toInt.toNat = y from Int.toNat_natCast y]
    unfold Shallot.buildIn
    rw [htr]
    simp only
    rw [hbuild, Hn]
    simp only
    have e : ({ builtGrid g (reread v) none with diagnosticMap := dm } : Shallot K) =
        { builtGrid g v none with numFxfy := reread v, diagnosticMap := dm } := by
      unfold builtGrid
      simp only [hr2]
    rw [e, finish_frame, hu]
    rfl

theorem finish_ok (minX maxX numX minY maxY numY maxRf numRf : PyVal K) (g : GridParams K)
    (hg : GridParams.new minX maxX numX minY maxY numY maxRf numRf = .ok g)
    (hext : g.extendable = true → 2 ≤ g.sliceShape.1 ∧ 2 ≤ g.sliceShape.2) (v : PyVal K)
    (n : ℕ) (hn : Count v n)
    (hall : ∀ i j, i < g.dy.data.length → j < g.dx.data.length → Buildable g n i j) :
    ∃ u, Shallot.finish (builtGrid g v none) = .ok u := by
  obtain ⟨s, dd, h1, -, h3⟩ := (C72_new _ _ _ _ _ _ _ _ g hg hext v (.bool false) n hn false rfl).1
    (fun y x hy hx => hall y x hy hx)
  have hs := shapedGrid_new _ _ _ _ _ _ _ _ _ hg
  have hb := (C72_build g hs v false).1 (fun y x hy hx => by rw [count_toInt hn]; exact hall y x hy hx)
  obtain ⟨d', hb1, hb2⟩ := hb
  have hdd : d' = none := by
    cases d' with
    | none => rfl
    | some d' => exact absurd rfl hb2.1
  rw [hdd] at hb1
  obtain ⟨fs', h5⟩ : ∃ fs', Shallot.newIn v (.bool false) (.bool false) g ([] : FS K) = (.ok s, fs') :=
    ⟨_, (newIn_plain v (.bool false) g []).1 s _ h1⟩
  have hnum : number v (.bool true) (.int 1) = .ok v := (number_count v v).2 ⟨rfl, n, hn⟩
  unfold Shallot.newIn at h5
  rw [hnum] at h5
  simp only at h5
  rw [show boolean (K := K) (.bool false) = .ok false from rfl] at h5
  simp only at h5
  unfold Shallot.buildIn at h5
  rw [trace_plain, hb1] at h5
  exact ⟨s, (Prod.mk.inj h5).1⟩

end

/-- **C63** If the interruption is between two file operations, and the first row had been saved (the
last file of a save exists), then `load` does give the grid. -/
theorem C63_can_resume (minX maxX numX minY maxY numY maxRf numRf : PyVal ℝ) (g : GridParams ℝ)
    (hg : GridParams.new minX maxX numX minY maxY numY maxRf numRf = .ok g)
    (hext : g.extendable = true → 2 ≤ g.sliceShape.1 ∧ 2 ≤ g.sliceShape.2) (v k saving : PyVal ℝ)
    (n : ℕ) (hn : Count v n) (hb : ∀ b, v ≠ .bool b) (hk : boolean k = .ok false)
    (hsv : boolean saving = .ok true)
    (hall : ∀ i j, i < g.dy.data.length → j < g.dx.data.length → Buildable g n i j)
    (fs : FS ℝ) (hfs : Rooted fs) (j : ℕ) (hj : 1 ≤ j)
    (hlast : (fs.crash (Shallot.trace true 0 (Shallot.bare g v false)) j false).at?
      (tempDir ++ ["FY_MAP_NONE.npy"]) ≠ none)
    (fs₂ : FS ℝ) (hfs₂ : Rooted fs₂) (d : Path) (hd : d ≠ []) (hdt : ¬ tempDir <+: d)
    (hcopy : ∀ l, fs₂.at? (d ++ l) =
      (fs.crash (Shallot.trace true 0 (Shallot.bare g v false)) j false).at? (tempDir ++ l)) :
    ∃ u fs₃ fs₄, Shallot.newIn v k saving g fs = (.ok u, fs₃) ∧
      Shallot.load d fs₂ = (.ok { u with numFxfy := .npInt .w64 n }, fs₄) := by
  have hs := shapedGrid_new _ _ _ _ _ _ _ _ _ hg
  have hc := new_consistent hg
  have hdy : g.dy.shape.headD 0 = g.dy.data.length := by
    obtain ⟨a, b, nx, c, d, ny, m, nr, -, -, -, rfl⟩ := (new_ok_iff ..).1 hg
    simp [gridOf, linspace_length]
  have hall' : ∀ i j, i < g.dy.data.length → j < g.dx.data.length →
      Buildable g v.toInt.toNat i j := by rw [count_toInt hn]; exact hall
  obtain ⟨u, hu⟩ := finish_ok _ _ _ _ _ _ _ _ g hg hext v n hn hall
  obtain ⟨fs₃, h3⟩ := newIn_saving g hs hc v k saving n hn hk hsv hall' fs hfs
  rw [hu] at h3
  obtain ⟨t, t1, t2, t3, t4, t5, hload⟩ := load_start
  have e : (fun f => (cleaned fs₂).at? (d ++ [f])) = fun f =>
      (fs.crash (Shallot.trace true 0 (Shallot.bare g v false)) j false).at? (tempDir ++ [f]) := by
    funext f
    rw [cleaned_at? fs₂ hfs₂, if_neg (not_temp hd hdt _), hcopy]
  have hr : Rooted (cleaned fs₂) := rooted_run [Step.rmtreeIfExists tempDir] hfs₂
  obtain ⟨fs₄, h4⟩ := readInto_full g hs hc hdy v n hn.2 hb t ⟨t1, t2, t3, t4, t5⟩ d (cleaned fs₂) hr
    (by rw [e]; exact trace_crash g hs hc v fs hfs j hj false)
    (by rw [e]; exact trace_full g hs hc v fs hfs j hj hlast) hall' u hu
  rw [(reread_toInt v n hn.2 hb).1] at h4
  exact ⟨u, fs₃, fs₄, h3, by rw [hload]; exact h4⟩

/-! ## A build that was interrupted -/

/-- A copy of the temporary directory, and nothing else. -/
def copied {K : Type} (fs : FS K) : FS K :=
  fs.filterMap fun e => if tempDir <+: e.1 then some ("copy" :: e.1.tail, e.2) else none

theorem copied_at? {K : Type} (fs : FS K) (l : List String) :
    (copied fs).at? ("copy" :: l) = fs.at? (tempDir ++ l) := by
  unfold FS.at? copied
  induction fs with
  | nil => rfl
  | cons e fs ih =>
    obtain ⟨p, n⟩ := e
    rw [List.filterMap_cons, List.lookup_cons]
    by_cases h : tempDir <+: p
    · obtain ⟨q, rfl⟩ := h
      rw [if_pos (List.prefix_append _ _)]
      simp only [tempDir, List.cons_append, List.nil_append, List.tail_cons, List.lookup_cons] at ih ⊢
      by_cases hq : l = q
      · subst hq; simp
      · have h1 : (("copy" :: l) == ("copy" :: q)) = false := by simp [hq]
        have h2 : ((".temp_shallot" :: l) == (".temp_shallot" :: q)) = false := by simp [hq]
        rw [h1, h2]
        exact ih
    · have h1 : ((tempDir ++ l) == p) = false := by
        rw [beq_eq_false_iff_ne]
        rintro rfl
        exact h (List.prefix_append _ _)
      rw [if_neg h, h1]
      exact ih

theorem copied_only {K : Type} (fs : FS K) (p : Path) (n : Node K) (h : (copied fs).at? p = some n) :
    ∃ l, p = "copy" :: l := by
  unfold FS.at? at h
  have hm : (p, n) ∈ copied fs := by
    rw [List.lookup_eq_some_iff] at h
    obtain ⟨a, b, h, -⟩ := h
    rw [h]; simp
  unfold copied at hm
  rw [List.mem_filterMap] at hm
  obtain ⟨e, -, he⟩ := hm
  split_ifs at he
  simp at he
  exact ⟨_, he.1.symm⟩

theorem rooted_copied {K : Type} {fs : FS K} (h : Rooted fs) : Rooted (copied fs) := by
  intro p f n hp
  obtain ⟨l, hl⟩ := copied_only fs _ _ hp
  rw [FS.isDir_iff]
  cases p with
  | nil => exact Or.inl rfl
  | cons a p =>
    rw [List.cons_append] at hl
    obtain ⟨rfl, rfl⟩ := List.cons.inj hl
    rw [List.cons_append, copied_at?, ← List.append_assoc] at hp
    have := FS.isDir_iff.1 (h _ _ _ hp)
    right
    rw [copied_at?]
    rcases this with h | h
    · simp [tempDir] at h
    · exact h

/-- The hypotheses of `C63_resume` and `C63_can_resume` can be met: a build of a 2 × 2 grid that is
interrupted once its first row has been saved. -/
example : ∃ (j : ℕ) (u : Shallot ℝ) (fs₃ fs₄ : FS ℝ), j < (Shallot.trace true 0
      (Shallot.bare throwAway (.int 100) false)).length ∧
    Shallot.newIn (.int 100) (.bool false) (.bool true) throwAway ([] : FS ℝ) = (.ok u, fs₃) ∧
    Shallot.load ["copy"] (copied (FS.crash ([] : FS ℝ) (Shallot.trace true 0
      (Shallot.bare throwAway (.int 100) false)) j false)) =
        (.ok { u with numFxfy := .npInt .w64 (100 : ℕ) }, fs₄) := by
  have hs := shapedGrid_new _ _ _ _ _ _ _ _ _ throwAway_new
  have hc := new_consistent throwAway_new
  obtain ⟨l1, l2, l3⟩ := throwAway_length
  have hall : ∀ i j, i < throwAway.dy.data.length → j < throwAway.dx.data.length →
      Buildable throwAway 100 i j := by
    intro i j hi hj
    exact throwAway_buildable i j (by rwa [l2] at hi) (by rwa [l1] at hj)
  obtain ⟨fs', r1, -⟩ := mid_run throwAway hs hc (.int 100) 0 _ (mid_start throwAway (.int 100) [] rooted_nil)
    (by rw [l2]; decide) (fun j hj => hall 0 j (by rw [l2]; decide) hj)
  have hfull := full_run throwAway hs hc (.int 100) 1 0 (by omega) _ _ r1
  obtain ⟨A, hA⟩ : ∃ A, A = (rowsDone throwAway (.int 100) 1).saveSteps .temp (.int (0 : ℕ)) := ⟨_, rfl⟩
  have r1' : (((cleaned []).put tempDir .dir : FS ℝ)).run A = (.ok (), fs') := by rw [hA]; exact r1
  obtain ⟨B, hB⟩ : ∃ B, Shallot.trace true 0 (Shallot.bare throwAway (.int 100) false) =
      (Step.rmtreeIfExists tempDir :: Step.mkdir tempDir :: A) ++ (B ++ [Step.rmtreeIfExists tempDir]) := by
    have htr := trace_new throwAway hs (.int 100) false
    rw [if_neg (by simp), ← rowsDone_zero, l2] at htr
    have hrow := (rowsDone_row throwAway hs (.int 100) 0 (by rw [l2]; decide)).1
      (fun j hj => hall 0 j (by rw [l2]; decide) hj)
    refine ⟨Shallot.rowsTrace true 1 1 (rowsDone throwAway (.int 100) 1), ?_⟩
    rw [htr, hA]
    conv_lhs => unfold Shallot.rowsTrace
    rw [hrow]
    simp
  have hr : FS.run ([] : FS ℝ) (Step.rmtreeIfExists tempDir :: Step.mkdir tempDir :: A) = (.ok (), fs') := by
    rw [(temp_new [] rooted_nil A).1, r1']
  have hcr : FS.crash ([] : FS ℝ) (Shallot.trace true 0 (Shallot.bare throwAway (.int 100) false))
      (A.length + 2) false = fs' := by
    have := crash_append ([] : FS ℝ) fs' _ (B ++ [Step.rmtreeIfExists tempDir]) hr 0 false
    rw [hB]
    exact this
  obtain ⟨b, hb, -⟩ := hfull "FY_MAP_NONE.npy" (by decide)
  simp only at hb
  obtain ⟨u, fs₃, fs₄, h1, h2⟩ := C63_can_resume _ _ _ _ _ _ _ _ throwAway throwAway_new
    (fun _ => by rw [hs.slice, l1, l2]; decide) (.int 100) (.bool false) (.bool true) 100 count_hundred
    (by intro b h; cases h) rfl rfl hall [] rooted_nil (A.length + 2) (by omega)
    (by rw [hcr, hb]; simp) (copied (FS.crash ([] : FS ℝ) (Shallot.trace true 0
      (Shallot.bare throwAway (.int 100) false)) (A.length + 2) false))
    (rooted_copied (rooted_crash _ _ _ rooted_nil)) ["copy"] (by simp) (by decide)
    (fun l => copied_at? _ l)
  refine ⟨A.length + 2, u, fs₃, fs₄, ?_, h1, h2⟩
  rw [hB]
  simp

end Beyonce
