import Verif.Props.Explained
import Verif.Props.GridFiles
import Verif.Props.RoundTrip

/-!
# Concrete cases

For theorems in files that come before the first grid that can be built: their hypotheses can be met.
The other cases are in `Complete`, `Measured`, `Solved`, `RoundTrip` and beside the theorems.
-/

set_option linter.unusedSectionVars false

namespace Beyonce
open Spec

/-! ## `GridParameters` on disk -/

/-- Two grids of 2 by 2 and 3 by 3 centres. -/
def Spec.firstGrid : GridParams ℚ := gridOf (.fin 0) (.fin 1) 2 (.fin 0) (.fin 1) 2 (.fin 2) 2
@[inherit_doc Spec.firstGrid]
def Spec.secondGrid : GridParams ℚ := gridOf (.fin 0) (.fin 1) 3 (.fin (-1)) (.fin 1) 3 (.fin 2) 2

theorem firstGrid_consistent : Consistent firstGrid := gridOf_consistent _ _ _ _ _ _ (by norm_num) (by norm_num)

/-- The hypotheses of `C25_save_succeeds`, `C25_round_trip_partial` and `C25_saving_elsewhere` are met:
one grid is saved on an empty disk, then another one elsewhere, and the first is loaded. -/
example : ∃ fs fs' : FS ℚ, FS.run [] (firstGrid.saveSteps ["a"]) = (.ok (), fs) ∧
    fs.run (secondGrid.saveSteps ["b"]) = (.ok (), fs') ∧ GridParams.load fs ["a"] = .ok firstGrid ∧
    GridParams.load fs' ["a"] = .ok firstGrid ∧ firstGrid.dx ≠ secondGrid.dx := by
  obtain ⟨fs, h⟩ := C25_save_succeeds ([] : FS ℚ) firstGrid ["a"] rfl rfl (fun _ => rfl)
  have hfs : fs = (FS.run [] (firstGrid.saveSteps ["a"])).2 := by rw [h]
  have h2 : (fs.run (secondGrid.saveSteps ["b"])).1 = .ok () := by rw [hfs]; decide +kernel
  refine ⟨fs, _, h, Prod.ext h2 rfl, C25_round_trip_partial _ _ _ _ firstGrid_consistent h,
    C25_saving_elsewhere _ _ _ secondGrid _ ["b"] firstGrid_consistent h (by decide), ?_⟩
  intro e
  have := congrArg (fun a => a.data.length) e
  simp [firstGrid, secondGrid, gridOf, linspace_length] at this

/-- The hypotheses of `C26_crash_fresh_partial` are met; both outcomes occur. -/
example : GridParams.load (FS.crash [] (firstGrid.saveSteps ["a"]) 5 false) ["a"] = .ok firstGrid ∧
    GridParams.load (FS.crash [] (firstGrid.saveSteps ["a"]) 4 true) ["a"] = .error .loadError := by
  constructor
  · rcases C26_crash_fresh_partial ([] : FS ℚ) firstGrid ["a"] firstGrid_consistent rfl 5 false with h | h
    · exact h
    · exact absurd h (by decide +kernel)
  · rcases C26_crash_fresh_partial ([] : FS ℚ) firstGrid ["a"] firstGrid_consistent rfl 4 true with h | h
    · exact absurd h (by decide +kernel)
    · exact h

/-! ## Interpolation -/

/-- The hypotheses of `C59_interp` and `C59_linear` are met. -/
example : npInterp [.fin (3 / 2 : ℝ)] [.fin 1, .fin 2] [.fin 5, .fin 7] = [.fin 6] ∧
    ∀ v ∈ npInterp [.fin (3 / 2 : ℝ)] [.fin 1, .fin 2] [.fin 5, .fin 7],
      v = .nan ∨ Among [.fin 5, .fin 7] v := by
  obtain ⟨hl, hv⟩ := C59_interp [.fin (3 / 2 : ℝ)] [.fin 1, .fin 2] [.fin 5, .fin 7] rfl (by simp)
    (by simp) (by rintro y hy; right; simp at hy; rcases hy with rfl | rfl <;> exact ⟨_, rfl⟩)
    (by rintro y hy; right; simp at hy; rcases hy with rfl | rfl <;> exact ⟨_, rfl⟩)
  refine ⟨?_, hv⟩
  have := C59_linear [.fin (3 / 2 : ℝ)] [.fin 1, .fin 2] [.fin 5, .fin 7]
    (fun i => if i = 0 then 1 else 2) (fun i => if i = 0 then 5 else 7)
    ⟨by intro i hi; match i, hi with | 0, _ => rfl | 1, _ => rfl,
      by
        intro i j h1 h2
        obtain ⟨rfl, rfl⟩ : i = 0 ∧ j = 1 := by simp at h2; omega
        norm_num⟩ rfl
    (by intro i hi; match i, hi with | 0, _ => rfl | 1, _ => rfl) 0 (3 / 2) rfl 0 (by simp) (by norm_num)
    (by norm_num)
  match hm : npInterp [.fin (3 / 2 : ℝ)] [.fin 1, .fin 2] [.fin 5, .fin 7], hl with
  | [a], _ =>
    rw [hm] at this
    have ha : a = .fin _ := Option.some.inj this
    rw [ha]
    norm_num

/-- Radii 6, 2, 4 at `fy` 1, 2, 3. -/
theorem three_radii : nanargmin [XF.fin (6 : ℝ), .fin 2, .fin 4] = .ok 1 ∧
    nanmin [XF.fin (6 : ℝ), .fin 2, .fin 4] = some (.fin 2) := by
  constructor
  · have h := nanargmin_ok [XF.fin (6 : ℝ), .fin 2, .fin 4]
    cases hi : nanargmin [XF.fin (6 : ℝ), .fin 2, .fin 4] with
    | error e =>
      have := ((nanargmin_error _ _).1 hi).2 (.fin 2) (by simp)
      cases this
    | ok i =>
      obtain ⟨h1, h2, -⟩ := h i hi
      match i, h1 with
      | 0, _ => exact absurd (h2 (.fin 2) (by simp)) (by simp; norm_num)
      | 1, _ => rfl
      | 2, _ => exact absurd (h2 (.fin 2) (by simp)) (by simp; norm_num)
  · have h := nanmin_spec [XF.fin (6 : ℝ), .fin 2, .fin 4]
    cases hm : nanmin [XF.fin (6 : ℝ), .fin 2, .fin 4] with
    | none => cases h.1.1 hm (.fin 2) (by simp)
    | some y =>
      obtain ⟨h1, -, h2⟩ := h.2 y hm
      have := h2 (.fin 2) (by simp) (by simp)
      simp only [List.mem_cons, List.not_mem_nil, or_false] at h1
      rcases h1 with rfl | rfl | rfl
      · rw [lessEq_iff] at this; norm_num at this
      · rfl
      · rw [lessEq_iff] at this; norm_num at this

/-- The hypotheses of `C59_scales` and `C59_piecewise` are met: at radius factor 3/2 the scale factors are
5/2 on the vertical side (half way between the radii 2 and 4) and 7/4 on the other. -/
example : ∃ v, Shallot.interpolateScales (.fin 1) [.fin 1, .fin (3 / 2)] [.fin 1, .fin 2, .fin 3]
      [.fin (6 : ℝ), .fin 2, .fin 4] = .ok (v.map (Geometry.determineFx (.fin 1)), v) ∧
    v = [.fin (7 / 4), .fin 2, .fin (5 / 2)] := by
  obtain ⟨h1, h2⟩ := three_radii
  obtain ⟨v, hv, hup, hdown⟩ := C59_piecewise (.fin 1) [.fin 1, .fin (3 / 2)] [.fin 1, .fin 2, .fin 3]
    [.fin (6 : ℝ), .fin 2, .fin 4] rfl 1 h1 2 h2 (fun i => i + 1)
    (by intro i hi; match i, hi with
        | 0, _ => norm_num
        | 1, _ => norm_num
        | 2, _ => norm_num)
    (fun i => if i = 0 then 6 else if i = 1 then 2 else 4)
    (by intro i hi; match i, hi with
        | 0, _ => norm_num
        | 1, _ => norm_num
        | 2, _ => norm_num) (by norm_num) 1 (3 / 2) (by norm_num) rfl
  have a := hup (by
    intro a b h1 h2 h3
    obtain ⟨rfl, rfl⟩ : a = 1 ∧ b = 2 := by simp at h3; omega
    norm_num) 1 le_rfl (by simp) (by norm_num) (by norm_num)
  have b := hdown (by
    intro a b h1 h2
    obtain ⟨rfl, rfl⟩ : a = 0 ∧ b = 1 := by omega
    norm_num) 0 (by norm_num) (by norm_num) (by norm_num)
  rcases C59_scales (.fin 1) [.fin 1, .fin (3 / 2)] [.fin 1, .fin 2, .fin 3] [.fin (6 : ℝ), .fin 2, .fin 4]
      rfl (by simp) (by simp) (by simp [Plain]) (by simp [Plain]) (by simp) with h | ⟨i, m, w, c1, c0, c2, c3, c4, -⟩
  · cases h.1 (.fin 2) (by simp)
  · obtain rfl : w = v := by
      rw [hv] at c2
      exact (congrArg Prod.snd (Except.ok.inj c2)).symm
    refine ⟨w, hv, ?_⟩
    have hi : i = 1 := by
      have hlt := (List.getElem?_eq_some_iff.1 c1).1
      have := c0 (.fin 2) (by simp)
      match i, hlt with
      | 0, _ =>
        cases c1
        rcases this with h | h
        · cases h
        · rw [lessEq_iff] at h; norm_num at h
      | 1, _ => rfl
      | 2, _ =>
        cases c1
        rcases this with h | h
        · cases h
        · rw [lessEq_iff] at h; norm_num at h
    subst hi
    match w, c3, a, b, c4 with
    | [w0, w1, w2], _, a, b, c4 =>
      simp only [List.length_cons, List.length_nil] at a b c4
      norm_num at a b c4
      rw [a, b, c4]

/-! ## Cells -/

/-- The cell of the centre (1, 1) of `throwAway`. -/
theorem throwAway_cell : CellAt (cellFor throwAway 100 1 1) 1 1 ∧
    (cellFor throwAway 100 1 1).maxX = .fin 1 ∧ (cellFor throwAway 100 1 1).maxY = .fin 1 ∧
    ∃ col, Shallot.column (cellFor throwAway 100 1 1) throwAway.rf.data = .ok col := by
  have hdx : throwAway.dx.data = [.fin 0, .fin 1] := two_points 0 1 one_pos
  have hdy : throwAway.dy.data = [.fin 0, .fin 1] := two_points 0 1 one_pos
  have hmax : npMax ([.fin 0, .fin 1] : List (XF ℝ)) = .fin 1 := by
    simp [npMax, XF.isNan]
  have hf : FiniteGrid throwAway := by
    constructor
    · rw [hdx]; simp
    · rw [hdy]; simp
  have hc := cellFor_at throwAway hf 100 1 1 1 1 (by rw [hdx]; rfl) (by rw [hdy]; rfl) (Or.inl one_ne_zero)
  refine ⟨hc, ?_, ?_, ?_⟩
  · show npMax throwAway.dx.data = _
    rw [hdx, hmax]
  · show npMax throwAway.dy.data = _
    rw [hdy, hmax]
  · rcases throwAway_buildable 1 1 (by norm_num) (by norm_num) with h | h
    · rw [hc.shear_eq, shear_fin _ _ one_ne_zero] at h
      cases h
    · exact h

/-- The hypotheses of `C57_cell`, `C58_horizontal` and `C58_vertical` are met. -/
example : ∃ (c : Shallot.Cell ℝ) (col : Shallot.Column ℝ) (m : ℝ), CellAt c 1 1 ∧
    (∃ l, Shallot.horizontalLoop c 1 [] [] = some (.ok l)) ∧
    Shallot.column c throwAway.rf.data = .ok col ∧ col.diskRadius.length = 3 ∧ 0 < m ∧
    col.diskRadius[1]? = some (.fin m) := by
  obtain ⟨hc, hx, hy, col, h⟩ := throwAway_cell
  have hrf : throwAway.rf.data.length = 2 := throwAway_length.2.2
  obtain ⟨⟨h1, -⟩, -, m, h2, -, -, h3⟩ := C57_cell _ 1 1 hc throwAway.rf.data (by
    intro h; rw [h] at hrf; cases hrf) col h
  rw [hrf] at h1 h3
  refine ⟨_, col, m, hc, ?_, h, h1, h2, h3⟩
  obtain ⟨k, -, -, -, hk | hk⟩ := C58_horizontal _ 1 hx
  · exact ⟨_, hk.1⟩
  · unfold Shallot.column at h
    rw [hk.1] at h
    cases h

/-! ## Saving -/

/-- The grid of `throwAway_grid` with diagnostics. -/
theorem throwAway_kept : ∃ s, Shallot.new (.int 100) (.bool true) throwAway = (.ok s, s.params) ∧
    s.diagnostics ≠ none := by
  have hl : ∀ z, z < throwAway.dy.data.length → z < 2 := by
    intro z hz
    rwa [throwAway_length.2.1] at hz
  obtain ⟨s, d, h1, h2, h3⟩ := (C72_new _ _ _ _ _ _ _ _ throwAway throwAway_new
    (fun _ => ⟨le_rfl, le_rfl⟩) (.int 100) (.bool true) 100 count_hundred true rfl).1
    (fun y x hy hx => throwAway_buildable y x (hl y hy) (by
      rwa [throwAway_length.1] at hx))
  refine ⟨s, h1, ?_⟩
  cases d with
  | none => cases h3
  | some d =>
    rw [h2.diagnostics]
    split <;> simp [builtGrid]

/-- The hypotheses of `C65_without_partial` are met, and those of `C65_false`, `C65_never`. -/
example : ∃ (s s' : Shallot ℝ) (fs fs' : FS ℝ),
    Shallot.new (.int 100) (.bool false) throwAway = (.ok s, s.params) ∧
    Shallot.new (.int 100) (.bool true) throwAway = (.ok s', s'.params) ∧
    FS.run [] (s.saveSteps (.other ["grid"])) = (.ok (), fs) ∧
    FS.run [] (s'.saveSteps (.other ["grid"])) = (.error .typeError, fs') := by
  obtain ⟨s, d, h1, h2⟩ := throwAway_grid
  obtain ⟨s', h3, h4⟩ := throwAway_kept
  obtain ⟨keep, hk, hm⟩ := made_new _ _ _ _ _ _ _ _ throwAway s.params throwAway_new
    (fun _ => ⟨le_rfl, le_rfl⟩) (.int 100) (.bool false) s h1
  cases hk
  obtain ⟨fs, h5⟩ := C65_without_partial ([] : FS ℝ) rooted_nil s (by simpa using hm.diagnostics) ["grid"] (by decide) rfl rfl
    .none (Or.inl rfl)
  obtain ⟨fs', h6, -⟩ := C65_false ([] : FS ℝ) rooted_nil s' h4 ["grid"] (by decide) rfl rfl
    .none (Or.inl rfl)
  exact ⟨s, s', fs, fs', h1, h3, h5, h6⟩

/-- The hypotheses of `C61_existing` and `C61_nothing_changes` are met: there is a file in a directory; saving
to that directory raises, saving to another one works, and the file is still there. -/
example : ∃ (s : Shallot ℝ) (fs : FS ℝ), fs.at? ["grid", "notes"] = some (.file (.floats [1] [.fin 1])) ∧
    fs.run (s.saveSteps (.other ["grid"])) = (.error .fileExistsError, fs) ∧
    ∃ fs', fs.run (s.saveSteps (.other ["copy"])) = (.ok (), fs') ∧
      fs'.at? ["grid", "notes"] = some (.file (.floats [1] [.fin 1])) := by
  obtain ⟨s, d, h1, h2⟩ := throwAway_grid
  obtain ⟨keep, hk, hm⟩ := made_new _ _ _ _ _ _ _ _ throwAway s.params throwAway_new
    (fun _ => ⟨le_rfl, le_rfl⟩) (.int 100) (.bool false) s h1
  cases hk
  have hr := rooted_run [.mkdirIfMissing ["grid"], .write ["grid", "notes"] (.floats [1] [.fin 1])]
    (rooted_nil (K := ℝ))
  obtain ⟨fs, hfs⟩ : ∃ fs, fs = (FS.run ([] : FS ℝ)
    [.mkdirIfMissing ["grid"], .write ["grid", "notes"] (.floats [1] [.fin 1])]).2 := ⟨_, rfl⟩
  have hn : fs.at? ["grid", "notes"] = some (.file (.floats [1] [.fin 1])) := by rw [hfs]; rfl
  rw [← hfs] at hr
  obtain ⟨fs', h3⟩ := C65_without_partial fs hr s (by simpa using hm.diagnostics) ["copy"] (by decide)
    (by rw [hfs]; rfl) rfl .none (Or.inl rfl)
  refine ⟨s, fs, hn, C61_existing fs s ["grid"] .none (by rw [hfs]; rfl), fs', h3, ?_⟩
  have := (C61_nothing_changes fs hr s ["copy"] (by decide) .none _ _ hn).1
  rwa [h3] at this

/-! ## Gradients -/

/-- The hypotheses of `C42_partial` are met: the call of `C41_false_witness` raises. -/
example : ∃ (s s' : Shallot ℝ) (e : Err), Sound s ∧
    Shallot.addGradients (column [.fin 0]) (column [.fin 0]) (.float (.fin 1)) .none s = (.error e, s') ∧
    s'.gradients ≠ s.gradients ∧ ∃ gs, s' = { s with gradients := some (s.gradients.getD [] ++ gs) } := by
  obtain ⟨s, s', e, p, hs, hp, h, hp', hg, -⟩ := C41_false_witness
  refine ⟨s, s', e, hs, h, hg, ?_⟩
  obtain ⟨h1 | ⟨gs, h1⟩, -⟩ := C42_partial _ _ _ _ (by rintro a ⟨⟩; rfl) (by rintro a ⟨⟩; rfl)
    (by rintro a ⟨⟩) (by rintro a ⟨⟩) s s' e h
  · exact absurd (by rw [h1]) hg
  · exact ⟨gs, h1⟩

/-- The hypotheses of `C39_never_unmasks` are met. -/
example : ∃ (s : Shallot ℝ), Sound s ∧ MaskedAt s 25 ∧
    MaskedAt (Shallot.addGradients (column [.fin 0]) (column [.fin 0]) .none .none s).2 25 := by
  obtain ⟨-, s, -, -, hs, hm, -⟩ := throwAway_masked
  exact ⟨s, hs, hm, C39_never_unmasks _ _ _ _ (by rintro a ⟨⟩; rfl) (by rintro a ⟨⟩; rfl)
    (by rintro a ⟨⟩) (by rintro a ⟨⟩) s 25 hm⟩

/-- The hypotheses of `C45_count` are met. -/
example : ∃ (s : Shallot ℝ), Sound s ∧
    Shallot.extractSolutions (.int 28) s = (.error .valueError, s) := by
  obtain ⟨-, s, -, -, hs, hgs, -⟩ := throwAway_ready
  refine ⟨s, hs, C45_count s hs (.int 28) 28 (.int _) (Or.inr ?_)⟩
  have h : (unmasked s).card ≤ elements s := by
    classical
    unfold unmasked
    exact (Finset.card_filter_le _ _).trans (by rw [Finset.card_range])
  have h2 : elements s = 27 := by unfold elements; rw [hgs]; rfl
  omega

end Beyonce
