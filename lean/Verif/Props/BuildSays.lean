import Verif.Props.BuildLog
import Verif.Props.Keeps
import Verif.Props.Sampling
import Verif.Props.GridProperty
import Verif.Props.GridGradient
import Verif.Props.Complete
import Verif.Props.ShallotLoad

/-!
# Property C131, continued: the messages
-/

set_option linter.unusedSectionVars false

namespace Beyonce
open Spec

section
variable {K : Type}

/-- `ls` was said between the two, with the logger unchanged. -/
def Spec.Said (ls : List (Line K)) (w w' : Site K) : Prop :=
  w'.log = w.log ++ ls.map (fun l => (w.level, l)) ∧ w'.level = w.level

theorem Spec.Said.nil (w : Site K) : Said [] w w := ⟨by simp, rfl⟩

theorem Spec.Said.trans {a b : List (Line K)} {w1 w2 w3 : Site K} (h : Said a w1 w2) (k : Said b w2 w3) :
    Said (a ++ b) w1 w3 := by
  obtain ⟨h1, h2⟩ := h
  obtain ⟨k1, k2⟩ := k
  refine ⟨?_, k2.trans h2⟩
  rw [k1, h1, h2, List.map_append, List.append_assoc]

end

section
variable {K : Type} [Field K] [LinearOrder K] [IsStrictOrderedRing K] [RealFns K] [FloorRing K]

/-! ## What a cell says -/

theorem fyLines_only (g : GridParams K) (fx : List (XF K)) : ∀ l ∈ Site.fyLines g fx, l = .debug .originFy := by
  intro l hl
  unfold Site.fyLines at hl
  dsimp only at hl
  split_ifs at hl
  · simpa using hl
  · cases hl

theorem horizontalLines_only (g : GridParams K) (c : Shallot.Cell K) : ∀ (n : ℕ) (fy r : List (XF K)) res,
    Site.horizontalLines g c n fy r = some res → ∀ l ∈ res, l = .debug .originFy := by
  refine Site.horizontalLines.partial_correctness g c (fun _ _ _ res => ∀ l ∈ res, l = .debug .originFy) ?_
  intro loop ih n fy r res h
  simp only at h
  split_ifs at h
  · cases h
    exact fyLines_only _ _
  · rcases hl : loop (n + 1) ((Shallot.horizontalScales c n).map Prod.snd ++ fy)
        (Shallot.radii c (Shallot.horizontalScales c n) ++ r) with _ | rest
    · rw [hl] at h; cases h
    · rw [hl] at h
      cases h
      intro l hm
      rcases List.mem_append.1 hm with h1 | h1
      · exact fyLines_only _ _ _ h1
      · exact ih _ _ _ _ hl l h1
  · cases h
    exact fyLines_only _ _

/-- What the construction of the column of cell `(y, x)` says. -/
def Spec.cellSays (s : Shallot K) (y x : ℕ) : List (Line K) :=
  if (s.shear.at3 y x 0).isNan then [] else (Site.horizontalLines s.params (s.cellOf y x) 1 [] []).getD []

theorem cellSays_only (s : Shallot K) (y x : ℕ) : ∀ l ∈ cellSays s y x, l = .debug .originFy := by
  intro l hl
  unfold cellSays at hl
  split_ifs at hl
  · cases hl
  · cases hq : Site.horizontalLines s.params (s.cellOf y x) 1 [] [] with
    | none => rw [hq] at hl; cases hl
    | some q => rw [hq] at hl; exact horizontalLines_only _ _ _ _ _ _ hq l hl

/-! ## What the build leaves alone -/

/-- What the loops over cells read stays. -/
structure Unchanged (s s' : Shallot K) : Prop where
  params : s'.params = s.params
  shear : s'.shear = s.shear
  radius : s'.circularRadius = s.circularRadius
  num : s'.numFxfy = s.numFxfy

theorem Unchanged.pre : Pre (Unchanged (K := K)) where
  refl _ := ⟨rfl, rfl, rfl, rfl⟩
  trans h k := ⟨k.params.trans h.params, k.shear.trans h.shear, k.radius.trans h.radius, k.num.trans h.num⟩

theorem cellSays_congr {s s' : Shallot K} (h : Unchanged s s') (y x : ℕ) : cellSays s' y x = cellSays s y x := by
  unfold cellSays Shallot.cellOf
  rw [h.params, h.shear, h.radius, h.num]

theorem unchanged_onProp {α : Type} (c : Cube) (m : Meth (GProp K) α) : Moves Unchanged (Shallot.onProp c m) := by
  intro s
  unfold Shallot.onProp
  cases s.prop c with
  | none => exact Unchanged.pre.refl s
  | some p => cases c <;> exact ⟨rfl, rfl, rfl, rfl⟩

theorem unchanged_buildCell (y x : ℕ) : Moves Unchanged (Shallot.buildCell (K := K) y x) := by
  have pre := Unchanged.pre (K := K)
  refine Moves.get_bind fun s => ?_
  by_cases h : (s.shear.at3 y x 0).isNan = true
  · rw [if_pos h]
    exact pre.refl s
  · rw [if_neg h]
    refine Moves.bind pre (Moves.lift pre _) (fun c => Moves.bind pre ?_ fun _ => ?_) s
    · unfold Shallot.storeColumn
      exact Moves.bind pre (unchanged_onProp _ _) fun _ => Moves.bind pre (unchanged_onProp _ _) fun _ =>
        Moves.bind pre (unchanged_onProp _ _) fun _ => Moves.bind pre (unchanged_onProp _ _) fun _ =>
          unchanged_onProp _ _
    · intro t
      unfold Shallot.storeDiagnostic
      cases t.diagnostics with
      | none => exact pre.refl t
      | some d => exact ⟨rfl, rfl, rfl, rfl⟩

theorem unchanged_buildRow (y : ℕ) : ∀ n x, Moves Unchanged (Shallot.buildRow (K := K) y n x)
  | 0, _ => Moves.pure Unchanged.pre ()
  | n + 1, x => Moves.bind Unchanged.pre (unchanged_buildCell y x) fun _ => unchanged_buildRow y n (x + 1)

/-! ## Rows -/

theorem buildCell_says (y x : ℕ) (w : Site K) :
    Said (cellSays w.grid y x) w (Site.buildCell y x w).2 := by
  unfold Site.buildCell cellSays
  rw [Meth.get_bind]
  by_cases h : (w.grid.shear.at3 y x 0).isNan = true
  · rw [if_pos h, if_pos h]
    exact Spec.Said.nil w
  · rw [if_neg h, if_neg h]
    exact ⟨rfl, rfl⟩

theorem buildRow_says (y : ℕ) : ∀ (n x : ℕ) (w : Site K) (r : Except Err Unit) (w' : Site K),
    Site.buildRow y n x w = (r, w') → ∃ ls, Said ls w w' ∧ (∀ l ∈ ls, l = .debug .originFy) ∧
      (r = .ok () → ls = (List.range' x n).flatMap (cellSays w.grid y))
  | 0, x, w, r, w', h => by
    cases h
    exact ⟨[], Spec.Said.nil w, fun l hl => (by simp at hl), fun _ => rfl⟩
  | n + 1, x, w, r, w', h => by
    have hc := buildCell_says y x w
    have hk := unchanged_buildCell (K := K) y x w.grid
    rw [← (heeds_buildCell y x w).2.1] at hk
    unfold Site.buildRow at h
    rcases hb : Site.buildCell y x w with ⟨e | u, w1⟩
    · rw [bind_err _ _ _ _ _ hb] at h
      cases h
      rw [hb] at hc
      exact ⟨_, hc, cellSays_only _ _ _, fun h => by cases h⟩
    · rw [bind_ok _ _ _ _ _ hb] at h
      rw [hb] at hc hk
      obtain ⟨ls, a, b, c⟩ := buildRow_says y n (x + 1) w1 r w' h
      refine ⟨_, hc.trans a, ?_, fun hr => ?_⟩
      · intro l hl
        rcases List.mem_append.1 hl with h1 | h1
        · exact cellSays_only _ _ _ l h1
        · exact b l h1
      · rw [c hr, List.range'_succ, List.flatMap_cons]
        congr 2
        funext x'
        exact cellSays_congr hk y x'

/-- What is said while row `y` is built. -/
def Spec.rowSays (s : Shallot K) (num y : ℕ) : List (Line K) :=
  .info (.building (y + 1) num) :: (List.range s.params.sliceShape.2).flatMap (cellSays s y)

theorem rowSays_congr {s s' : Shallot K} (h : Unchanged s s') (num y : ℕ) : rowSays s' num y = rowSays s num y := by
  unfold rowSays
  rw [h.params, show cellSays s' y = cellSays s y from funext fun x => cellSays_congr h y x]

theorem unchanged_saveRow (saving : Bool) (y : ℕ) (w : Site K) :
    Said [] w (Site.saveRow saving y w).2 ∧ (Site.saveRow saving y w).2.grid = w.grid := by
  unfold Site.saveRow
  rw [Meth.get_bind]
  split_ifs
  · exact ⟨⟨by simp [Site.files], rfl⟩, rfl⟩
  · exact ⟨Spec.Said.nil w, rfl⟩

theorem buildRows_says (saving : Bool) (num : ℕ) : ∀ (n y : ℕ) (w : Site K) (r : Except Err Unit) (w' : Site K),
    Site.buildRows saving num n y w = (r, w') → ∃ ls, Said ls w w' ∧
      (∀ l ∈ ls, l = .debug .originFy ∨ ∃ k, l = .info (.building k num)) ∧
      (r = .ok () → ls = (List.range' y n).flatMap (rowSays w.grid num))
  | 0, y, w, r, w', h => by
    cases h
    exact ⟨[], Spec.Said.nil w, fun l hl => (by simp at hl), fun _ => rfl⟩
  | n + 1, y, w, r, w', h => by
    have unf : Site.buildRows saving num (n + 1) y w =
        (Site.buildRow y w.grid.params.sliceShape.2 0 >>= fun _ => Site.saveRow saving y >>= fun _ =>
          Site.buildRows saving num n (y + 1))
          { w with log := w.log ++ [(w.level, .info (.building (y + 1) num))] } := rfl
    rw [unf] at h
    have h0 : Said [.info (.building (y + 1) num)] w
        { w with log := w.log ++ [(w.level, .info (.building (y + 1) num))] } := ⟨rfl, rfl⟩
    have hk := unchanged_buildRow (K := K) y w.grid.params.sliceShape.2 0 w.grid
    rw [← (heeds_buildRow y w.grid.params.sliceShape.2 0
      { w with log := w.log ++ [(w.level, .info (.building (y + 1) num))] }).2.1] at hk
    rcases hb : Site.buildRow y w.grid.params.sliceShape.2 0
      { w with log := w.log ++ [(w.level, .info (.building (y + 1) num))] } with ⟨e | u, w1⟩
    · rw [bind_err _ _ _ _ _ hb] at h
      cases h
      obtain ⟨ls, a, b, -⟩ := buildRow_says _ _ _ _ _ _ hb
      refine ⟨_, h0.trans a, ?_, fun h => by cases h⟩
      intro l hl
      rcases List.mem_append.1 hl with h1 | h1
      · exact Or.inr ⟨_, by simpa using h1⟩
      · exact Or.inl (b l h1)
    · rw [bind_ok _ _ _ _ _ hb] at h
      rw [hb] at hk
      obtain ⟨ls, a, b, c⟩ := buildRow_says _ _ _ _ _ _ hb
      have c := c rfl
      dsimp only at c hk
      obtain ⟨s1, s2⟩ := unchanged_saveRow saving y w1
      have first : ∀ l ∈ [Line.info (.building (y + 1) num)] ++ ls, l = .debug .originFy ∨
          ∃ k, l = .info (.building k num) := by
        intro l hl
        rcases List.mem_append.1 hl with h1 | h1
        · exact Or.inr ⟨_, by simpa using h1⟩
        · exact Or.inl (b l h1)
      rcases hs : Site.saveRow saving y w1 with ⟨e | u, w2⟩
      · rw [bind_err _ _ _ _ _ hs] at h
        cases h
        rw [hs] at s1
        have := (h0.trans a).trans s1
        rw [List.append_nil] at this
        exact ⟨_, this, first, fun h => by cases h⟩
      · rw [bind_ok _ _ _ _ _ hs] at h
        rw [hs] at s1 s2
        dsimp only at s1 s2
        obtain ⟨ls', a', b', c'⟩ := buildRows_says saving num n (y + 1) w2 r w' h
        have := ((h0.trans a).trans s1).trans a'
        rw [List.append_nil] at this
        refine ⟨_, this, ?_, fun hr => ?_⟩
        · intro l hl
          rcases List.mem_append.1 hl with h1 | h1
          · exact first l h1
          · exact b' l h1
        · rw [c' hr, List.range'_succ, List.flatMap_cons, c, s2]
          have e1 : rowSays w.grid num y = [.info (.building (y + 1) num)] ++
              (List.range' 0 w.grid.params.sliceShape.2).flatMap (cellSays w.grid y) := by
            unfold rowSays
            rw [List.range_eq_range']
            rfl
          rw [e1]
          congr 2
          funext y'
          exact rowSays_congr hk num y'

/-! ## The temporary directory -/

theorem grad_no_rmtree (g : GGrad K) (dir d : Path) : Step.rmtreeIfExists d ∉ g.saveSteps dir := by
  have hp := prop_no_rmtree g.prop (dir ++ [g.dirName]) d
  cases hm : g.measured <;> simp [GGrad.saveSteps, hm, GridParams.saveSteps, hp]

theorem grid_no_rmtree (s : Shallot K) (dir : DirArg) (y : PyVal K) (d : Path) :
    Step.rmtreeIfExists d ∉ s.saveSteps dir y := by
  have hy : Step.rmtreeIfExists d ∉ s.yValueSteps dir.path y := by
    unfold Shallot.yValueSteps
    split
    · simp
    · split <;> simp
  have hd : Step.rmtreeIfExists d ∉ (if s.diagnostics.isSome then [.raise .typeError] else [] : List (Step K)) := by
    split <;> simp
  intro h
  cases dir <;> simp only [Shallot.saveSteps, List.mem_cons, List.mem_append, reduceCtorEq, false_or, List.mem_flatMap] at h
  all_goals rcases h with h | h | h | h | h | h | h | ⟨g, -, h⟩ | h
  all_goals first
    | exact hy h
    | exact saveSteps_no_rmtree _ _ _ h
    | exact prop_no_rmtree _ _ _ h
    | exact grad_no_rmtree _ _ _ h
    | exact hd h

theorem rowsTrace_no_rmtree (saving : Bool) (d : Path) : ∀ (n y : ℕ) (s : Shallot K),
    Step.rmtreeIfExists d ∉ Shallot.rowsTrace saving n y s
  | 0, y, s => by
    unfold Shallot.rowsTrace
    split <;> simp
  | n + 1, y, s => by
    unfold Shallot.rowsTrace
    split
    · simp
    · intro h
      rcases List.mem_append.1 h with h | h
      · split_ifs at h
        · exact grid_no_rmtree _ _ _ _ h
        · cases h
      · exact rowsTrace_no_rmtree saving d n (y + 1) _ h

theorem run_still (fs : FS K) (ss : List (Step K)) (hs : ∀ d, .rmtreeIfExists d ∉ ss) (q : Path)
    (h : fs.exists? q = true) : (fs.run ss).2.exists? q = true := by
  unfold FS.exists? at *
  rcases FS.run_at? fs ss hs q with h1 | ⟨b, -, h1⟩ | ⟨-, -, h1⟩
  · rw [h1]; exact h
  · rw [h1]; rfl
  · rw [h1]; rfl

theorem rows_quiet (n : ℕ) : ∀ (y : ℕ) (s : Shallot K) (fs : FS K),
    (fs.run (Shallot.rowsTrace false n y s)).2 = fs := by
  induction n with
  | zero =>
    intro y s fs
    unfold Shallot.rowsTrace
    split <;> rfl
  | succ n ih =>
    intro y s fs
    unfold Shallot.rowsTrace
    split
    · rfl
    · exact ih _ _ _

theorem unchanged_initialise : Moves Unchanged (Shallot.initialise (K := K)) := by
  have pre := Unchanged.pre (K := K)
  have step : ∀ (e : Except Err (GProp K)) (f : GProp K → Shallot K → Shallot K)
      (m : Meth (Shallot K) Unit), (∀ a s, Unchanged s (f a s)) → Moves Unchanged m →
      Moves Unchanged (Meth.lift e >>= fun a => Meth.modify (f a) >>= fun _ => m) := fun e f m hf hm =>
    Moves.bind pre (Moves.lift pre e) fun a => Moves.bind pre (Moves.modify (hf a)) fun _ => hm
  refine Moves.get_bind fun s => ?_
  refine step _ (fun a s => { s with diskRadius := a }) _ (fun _ _ => ⟨rfl, rfl, rfl, rfl⟩) ?_ s
  refine step _ (fun a s => { s with inclination := a }) _ (fun _ _ => ⟨rfl, rfl, rfl, rfl⟩) ?_
  refine step _ (fun a s => { s with tilt := a }) _ (fun _ _ => ⟨rfl, rfl, rfl, rfl⟩) ?_
  refine step _ (fun a s => { s with fxMap := a }) _ (fun _ _ => ⟨rfl, rfl, rfl, rfl⟩) ?_
  exact Moves.bind pre (Moves.lift pre _) fun a => Moves.modify fun _ => ⟨rfl, rfl, rfl, rfl⟩

theorem createTemp_says (w : Site K) (r : Except Err Unit) (w' : Site K) (h : Site.createTemp w = (r, w')) :
    Said (if w.fs.exists? tempDir then [.debug .cleared] else []) w w' ∧
    (r = .ok () → w'.fs.exists? tempDir = true) := by
  have made : ∀ (fs fs' : FS K) (u : Unit), fs.run [.mkdir tempDir] = (.ok u, fs') → fs'.exists? tempDir = true := by
    intro fs fs' u h
    simp only [FS.run, FS.step, FS.mkdir] at h
    split at h
    · rename_i h'
      split_ifs at h'
      cases h'
      cases h
      simp [FS.exists?, FS.at?, FS.put]
    · cases h
  unfold Site.createTemp at h
  rw [Meth.get_bind] at h
  by_cases hx : w.fs.exists? tempDir = true
  · rw [if_pos hx] at h ⊢
    have : Site.files [.rmtreeIfExists tempDir] w = (.ok (), { w with fs := w.fs.rmtree tempDir }) := by
      unfold Site.files
      rw [run_rmtree, if_pos hx]
      rfl
    rw [bind_ok _ _ _ _ _ this] at h
    have h' : Site.files [.mkdir tempDir] ⟨w.grid, w.fs.rmtree tempDir, w.level, w.log ++ [(w.level, .debug .cleared)]⟩ =
        (r, w') := h
    unfold Site.files at h'
    injection h' with h1 h2
    subst h2
    refine ⟨⟨rfl, rfl⟩, fun hr => ?_⟩
    exact made _ _ () (Prod.ext (h1.trans hr) rfl)
  · rw [if_neg hx] at h ⊢
    have h' : Site.files [.mkdir tempDir] w = (r, w') := h
    unfold Site.files at h'
    injection h' with h1 h2
    subst h2
    refine ⟨⟨by simp, rfl⟩, fun hr => ?_⟩
    exact made _ _ () (Prod.ext (h1.trans hr) rfl)

theorem rmtree_gone (fs : FS K) (d : Path) : (fs.rmtree d).exists? d = false := by
  unfold FS.exists? FS.at? FS.rmtree
  induction fs with
  | nil => rfl
  | cons e l ih =>
    rw [List.filter_cons]
    split_ifs with h
    · obtain ⟨p, n⟩ := e
      have : (d == p) = false := by
        rw [beq_eq_false_iff_ne]
        rintro rfl
        rw [List.isPrefixOf_iff_prefix.2 (List.prefix_refl d)] at h
        cases h
      rw [List.lookup_cons, this]
      exact ih
    · exact ih

theorem deleteTemp_says (w : Site K) : ∃ w', Site.deleteTemp w = (.ok (), w') ∧
    Said (if w.fs.exists? tempDir then [.debug .deleted] else []) w w' ∧ w'.fs.exists? tempDir = false := by
  unfold Site.deleteTemp
  rw [Meth.get_bind]
  by_cases hx : w.fs.exists? tempDir = true
  · rw [if_pos hx, if_pos hx]
    have : Site.files [.rmtreeIfExists tempDir] w = (.ok (), { w with fs := w.fs.rmtree tempDir }) := by
      unfold Site.files
      rw [run_rmtree, if_pos hx]
      rfl
    rw [bind_ok _ _ _ _ _ this]
    exact ⟨_, rfl, ⟨rfl, rfl⟩, rmtree_gone _ _⟩
  · rw [if_neg hx, if_neg hx]
    exact ⟨_, rfl, Spec.Said.nil w, by simpa using hx⟩

/-! ## The whole build -/

theorem afterInit_says (saving : Bool) (y : ℕ) (w : Site K) (r : Except Err Unit) (w' : Site K)
    (h : afterInit saving y w = (r, w')) : ∃ ls,
    Said ((if saving = true ∧ w.fs.exists? tempDir = true then [.debug .cleared] else []) ++ ls ++
      (if r = .ok () ∧ (saving = true ∨ w.fs.exists? tempDir = true) then [.debug .deleted] else [])) w w' ∧
    (∀ l ∈ ls, l = .debug .originFy ∨ ∃ k, l = .info (.building k w.grid.params.sliceShape.1)) ∧
    (r = .ok () → ls = (List.range' y (w.grid.params.sliceShape.1 - y)).flatMap
      (rowSays w.grid w.grid.params.sliceShape.1)) ∧
    (r = .ok () → w'.fs.exists? tempDir = false) := by
  have start : ∀ r1 w1, (if saving then Site.createTemp else pure () : Meth (Site K) Unit) w = (r1, w1) →
      Said (if saving = true ∧ w.fs.exists? tempDir = true then [.debug .cleared] else []) w w1 ∧
      w1.grid = w.grid ∧ (r1 = .ok () → w1.fs.exists? tempDir = true ∨ (saving = false ∧ w1.fs = w.fs)) := by
    intro r1 w1 h1
    cases saving with
    | false =>
      cases h1
      exact ⟨by simpa using Spec.Said.nil w, rfl, fun _ => Or.inr ⟨rfl, rfl⟩⟩
    | true =>
      have h1' : Site.createTemp w = (r1, w1) := h1
      obtain ⟨a, b⟩ := createTemp_says w r1 w1 h1'
      refine ⟨by simpa using a, ?_, fun hr => Or.inl (b hr)⟩
      have := (acts_createTemp w).2.2.1
      rw [h1'] at this
      exact this
  unfold afterInit at h
  rcases hc : (if saving then Site.createTemp else pure () : Meth (Site K) Unit) w with ⟨e | u, w1⟩
  · rw [bind_err _ _ _ _ _ hc] at h
    cases h
    obtain ⟨a, -, -⟩ := start _ _ hc
    refine ⟨[], ?_, fun l hl => (by simp at hl), fun h => (by cases h), fun h => (by cases h)⟩
    simpa using a
  · rw [bind_ok _ _ _ _ _ hc, Meth.get_bind] at h
    obtain ⟨a, g1, ex'⟩ := start _ _ hc
    have ex := ex' rfl
    clear ex' 
    rw [g1] at h
    rcases hr : Site.buildRows saving w.grid.params.sliceShape.1 (w.grid.params.sliceShape.1 - y) y w1
      with ⟨e | b, w2⟩
    · rw [bind_err _ _ _ _ _ hr] at h
      cases h
      obtain ⟨ls, s, o, -⟩ := buildRows_says _ _ _ _ _ _ _ hr
      refine ⟨ls, ?_, o, fun h => (by cases h), fun h => (by cases h)⟩
      simpa using a.trans s
    · rw [bind_ok _ _ _ _ _ hr] at h
      obtain ⟨ls, s, o, rows⟩ := buildRows_says _ _ _ _ _ _ _ hr
      have rows := rows rfl
      rw [g1] at rows
      rcases hq : Site.onGrid Shallot.recolorAll w2 with ⟨e | c, w3⟩
      · rw [bind_err _ _ _ _ _ hq] at h
        cases h
        have hl : Said [] w2 w' := by
          unfold Site.onGrid at hq
          injection hq with h1 h2
          subst h2
          exact ⟨by simp, rfl⟩
        refine ⟨ls, ?_, o, fun h => (by cases h), fun h => (by cases h)⟩
        simpa using (a.trans s).trans hl
      · rw [bind_ok _ _ _ _ _ hq] at h
        have hl : Said [] w2 w3 := by
          unfold Site.onGrid at hq
          injection hq with h1 h2
          subst h2
          exact ⟨by simp, rfl⟩
        have hf := (rows_files saving w.grid.params.sliceShape.1 (w.grid.params.sliceShape.1 - y) y w1 (.ok c) w3
          (by rw [bind_ok _ _ _ _ _ hr]; exact hq)).1
        obtain ⟨w4, d1, d2, d3⟩ := deleteTemp_says w3
        rw [d1] at h
        cases h
        have hx : w3.fs.exists? tempDir = true ↔ (saving = true ∨ w.fs.exists? tempDir = true) := by
          rcases ex with ex | ⟨rfl, ex⟩
          · have : w3.fs.exists? tempDir = true := by
              have := run_still w1.fs _ (fun d => rowsTrace_no_rmtree saving d
                (w.grid.params.sliceShape.1 - y) y w1.grid) tempDir ex
              rw [hf] at this
              exact this
            refine ⟨fun _ => ?_, fun _ => this⟩
            cases saving with
            | true => exact Or.inl rfl
            | false =>
              cases hc
              exact Or.inr ex
          · have := rows_quiet (w.grid.params.sliceShape.1 - y) y w1.grid w1.fs
            rw [hf] at this
            dsimp only at this
            rw [this, ex]
            simp
        refine ⟨ls, ?_, o, fun _ => rows, fun _ => d3⟩
        have := ((a.trans s).trans hl).trans d2
        rw [List.append_nil] at this
        by_cases hs : saving = true ∨ w.fs.exists? tempDir = true
        · rw [if_pos (hx.2 hs)] at this
          have e1 : (if (Except.ok () : Except Err Unit) = .ok () ∧ (saving = true ∨ w.fs.exists? tempDir = true)
              then [.debug .deleted] else [] : List (Line K)) = [.debug .deleted] := if_pos ⟨rfl, hs⟩
          rw [e1]
          exact this
        · rw [if_neg fun h => hs (hx.1 h)] at this
          have e1 : (if (Except.ok () : Except Err Unit) = .ok () ∧ (saving = true ∨ w.fs.exists? tempDir = true)
              then [.debug .deleted] else [] : List (Line K)) = [] := if_neg fun h => hs h.2
          rw [e1]
          exact this

/-- **C131 (the messages of a build).** Let the properties of the grid be made, which is the first thing
a build does.  A build that saves first says that the temporary directory was cleared if there was one.
While it goes through the rows it says which one it builds, and `origin corrected`; if it is not interrupted,
this is row by row and cell by cell what the cells say.  At the end it says that the temporary directory was
deleted, if there was one at the beginning or if it saved; then there is none any more.  It says nothing else,
and if it raises it does not say that anything was deleted. -/
theorem C131_build_says (saving : Bool) (y : ℕ) (w : Site K) (r : Except Err Unit) (w' : Site K)
    (h : Site.build saving y w = (r, w')) (hi : y = 0 → (Shallot.initialise w.grid).1 = .ok ()) : ∃ ls,
    Said ((if saving = true ∧ w.fs.exists? tempDir = true then [.debug .cleared] else []) ++ ls ++
      (if r = .ok () ∧ (saving = true ∨ w.fs.exists? tempDir = true) then [.debug .deleted] else [])) w w' ∧
    (∀ l ∈ ls, l = .debug .originFy ∨ ∃ k, l = .info (.building k w.grid.params.sliceShape.1)) ∧
    (r = .ok () → ls = (List.range' y (w.grid.params.sliceShape.1 - y)).flatMap
      (rowSays w.grid w.grid.params.sliceShape.1)) ∧
    (r = .ok () → w'.fs.exists? tempDir = false) := by
  have unf : Site.build (K := K) saving y =
      ((if y = 0 then Site.onGrid Shallot.initialise else pure ()) >>= fun _ => afterInit saving y) := by
    unfold Site.build afterInit
    cases saving <;> by_cases hy : y = 0 <;> simp only [hy, if_true, if_false, Bool.false_eq_true, reduceIte] <;>
      rfl
  rw [unf] at h
  obtain ⟨w1, h1, k1, l1, f1⟩ : ∃ w1 : Site K,
      (if y = 0 then Site.onGrid Shallot.initialise else pure () : Meth (Site K) Unit) w = (.ok (), w1) ∧
      Unchanged w.grid w1.grid ∧ Said [] w w1 ∧ w1.fs = w.fs := by
    by_cases hy : y = 0
    · rw [if_pos hy]
      refine ⟨{ w with grid := (Shallot.initialise w.grid).2 }, ?_, unchanged_initialise _, ⟨by simp, rfl⟩, rfl⟩
      unfold Site.onGrid
      rw [hi hy]
    · rw [if_neg hy]
      exact ⟨w, rfl, Unchanged.pre.refl _, Spec.Said.nil w, rfl⟩
  rw [bind_ok _ _ _ _ _ h1] at h
  obtain ⟨ls, a, b, c, d⟩ := afterInit_says saving y w1 r w' h
  rw [f1, k1.params] at *
  refine ⟨ls, l1.trans a, b, fun hr => ?_, d⟩
  rw [c hr]
  congr 1
  funext y'
  exact rowSays_congr k1 _ y'

/-! ## Origins -/

theorem count_pairs {A B : Type} (p : A → Bool) (q : B → Bool) (m : List B) : ∀ l : List A,
    (l.flatMap fun a => m.map fun b => p a && q b).countP id = l.countP p * m.countP q
  | [] => by simp
  | a :: l => by
    rw [List.flatMap_cons, List.countP_append, count_pairs p q m l, List.countP_cons, List.countP_map]
    cases h : p a
    · have : (id ∘ fun b => false && q b) = fun _ : B => false := rfl
      rw [this]
      simp
    · have : (id ∘ fun b => true && q b) = q := rfl
      rw [this]
      simp only [if_true]
      ring

theorem mul_one_iff (a b : ℕ) : a * b = 1 ↔ a = 1 ∧ b = 1 := by
  constructor
  · intro h
    exact ⟨Nat.eq_one_of_mul_eq_one_right h, Nat.eq_one_of_mul_eq_one_left h⟩
  · rintro ⟨rfl, rfl⟩
    rfl

theorem eqb_iff (x : XF K) (v : K) : XF.eqb x (.fin v) = true ↔ x = .fin v := by
  cases x <;> simp [XF.eqb]

theorem countP_eqb (l : List (XF K)) (v : K) :
    l.countP (fun x => XF.eqb x (.fin v)) = l.count (.fin v) := by
  unfold List.count
  congr 1
  funext x
  rw [Bool.eq_iff_iff, eqb_iff, beq_iff_eq]

theorem fyLines_eq (g : GridParams K) (fx : List (XF K)) : Site.fyLines g fx =
    if g.dy.data.count (.fin 0) = 1 ∧ fx.count (.fin 1) = 1 then [.debug .originFy] else [] := by
  unfold Site.fyLines
  dsimp only
  rw [count_pairs (fun y => XF.eqb y (.fin 0)) (fun f => XF.eqb f (.fin 1)), countP_eqb, countP_eqb]
  simp only [mul_one_iff]

theorem shearLines_eq (g : GridParams K) : Site.shearLines g =
    if g.dy.data.count (.fin 0) = 1 ∧ g.dx.data.count (.fin 0) = 1 then [.debug .originShear] else [] := by
  unfold Site.shearLines
  dsimp only
  rw [count_pairs (fun y => XF.eqb y (.fin 0)) (fun f => XF.eqb f (.fin 0)), countP_eqb, countP_eqb]
  simp only [mul_one_iff]

theorem evenly_nodup {l : List (XF K)} {a b : K} {n : ℕ} (h : Evenly l a b n) : l.Nodup := by
  obtain ⟨st, hst, hl⟩ := h.step
  rw [List.nodup_iff_getElem?_ne_getElem?]
  intro i j hij hj
  rw [h.length] at hj
  rw [hl i (by omega), hl j hj]
  intro heq
  injection heq with heq
  injection heq with heq
  have : (i : K) * st < j * st := mul_lt_mul_of_pos_right (by exact_mod_cast hij) hst
  linarith

/-- **C131 (`origin corrected`, the shear).** When the coordinates of the disks along each axis are different
numbers, `_determine_shear` says that it corrected the origin if and only if the origin is one of the centres. -/
theorem C131_shear (g : GridParams K) (hx : g.dx.data.Nodup) (hy : g.dy.data.Nodup) :
    (Line.debug .originShear ∈ Site.shearLines g ↔ .fin 0 ∈ g.dx.data ∧ .fin 0 ∈ g.dy.data) ∧
    (Site.shearLines g).length ≤ 1 := by
  have one : ∀ l : List (XF K), l.Nodup → (l.count (.fin 0) = 1 ↔ .fin 0 ∈ l) := by
    intro l hl
    constructor
    · intro h
      exact List.count_pos_iff.1 (by omega)
    · intro h
      exact List.count_eq_one_of_mem hl h
  rw [shearLines_eq]
  simp only [one _ hx, one _ hy]
  constructor
  · split_ifs with h
    · simpa using ⟨h.2, h.1⟩
    · simp only [List.not_mem_nil, false_iff]
      exact fun h' => h ⟨h'.2, h'.1⟩
  · split_ifs <;> simp

/-- The coordinates of a new grid are such. -/
theorem C131_shear_new (minX maxX numX minY maxY numY maxRf numRf : PyVal K)
    (a b c d : K) (nx ny nr : ℕ) (m : XF K)
    (ha : IsNumber false minX (.fin a)) (hb : IsNumber false maxX (.fin b)) (hnx : Count numX nx)
    (hc : IsNumber false minY (.fin c)) (hd : IsNumber false maxY (.fin d)) (hny : Count numY ny)
    (hm : IsNumber false maxRf m) (hm1 : ¬ Less m (.fin 1)) (hnr : Count numRf nr)
    (g : GridParams K) (hg : GridParams.new minX maxX numX minY maxY numY maxRf numRf = .ok g) :
    Line.debug .originShear ∈ Site.shearLines g ↔ .fin 0 ∈ g.dx.data ∧ .fin 0 ∈ g.dy.data := by
  obtain ⟨h1, h2, -⟩ := (C21_vectors minX maxX numX minY maxY numY maxRf numRf a b c d nx ny nr m ha hb hnx hc hd
    hny hm hm1 hnr).2 g hg
  exact (C131_shear g (evenly_nodup h1) (evenly_nodup h2)).1

theorem fxyArray_count_first (m : K) (hm : 1 < m) (n : ℕ) (hn : 1 ≤ n) :
    (Shallot.fxyArray (.fin m) 1 n).count (.fin 1) = 1 := by
  have e : Shallot.fxyArray (.fin m) 1 n = linspace (.fin 1) (.fin m) n := by
    unfold Shallot.fxyArray
    simp [XF.mul]
  rw [e]
  have h := linspace_evenly hm hn
  exact List.count_eq_one_of_mem (evenly_nodup h) (List.mem_of_getElem? h.first)

theorem fxyArray_count_later (m : K) (hm : 1 < m) (n k : ℕ) (hn : 1 ≤ n) (hk : 1 ≤ k) :
    (Shallot.fxyArray (.fin m) (k + 1) n).count (.fin 1) = 0 := by
  have hk' : (1 : K) ≤ k := by exact_mod_cast hk
  have e : Shallot.fxyArray (.fin m) (k + 1) n = linspace (.fin (k * m)) (.fin ((k + 1) * m)) n := by
    unfold Shallot.fxyArray
    rw [if_neg (by omega)]
    simp [XF.mul]
  rw [e]
  have h := linspace_evenly (a := (k : K) * m) (b := (k + 1) * m) (by linarith) hn
  rw [List.count_eq_zero]
  intro hmem
  obtain ⟨j, hj⟩ := List.mem_iff_getElem?.1 hmem
  obtain ⟨st, hst, hl⟩ := h.step
  have hjn : j < n := by
    rw [← h.length]
    by_contra hc
    rw [List.getElem?_eq_none (by omega)] at hj
    cases hj
  rw [hl j hjn] at hj
  injection hj with hj
  injection hj with hj
  have h1 : m ≤ k * m := by
    have := mul_le_mul_of_nonneg_right hk' (by linarith : (0 : K) ≤ m)
    linarith
  have h2 : 0 ≤ (j : K) * st := mul_nonneg (by positivity) hst.le
  linarith

theorem horizontalLines_later (g : GridParams K) (c : Shallot.Cell K) (m : K) (hm : 1 < m)
    (hc : c.maxX = .fin m) (hn : 1 ≤ c.num) : ∀ (d k : ℕ) (fy r : List (XF K)), 1 ≤ k → 100 * m < k + 1 + d →
    Site.horizontalLines g c (k + 1) fy r = some [] := by
  intro d
  induction d with
  | zero =>
    intro k fy r hk hd
    have said : Site.fyLines g (Shallot.fxyArray c.maxX (k + 1) c.num) = [] := by
      rw [fyLines_eq, hc, fxyArray_count_later m hm _ _ hn hk]
      simp
    rw [Site.horizontalLines, said]
    have far : Shallot.tooFar c.maxX (k + 1 + 1) = true := by
      rw [hc, tooFar_fin]
      push_cast
      push_cast at hd
      linarith
    rw [if_pos far]
    split_ifs <;> rfl
  | succ d ih =>
    intro k fy r hk hd
    have said : Site.fyLines g (Shallot.fxyArray c.maxX (k + 1) c.num) = [] := by
      rw [fyLines_eq, hc, fxyArray_count_later m hm _ _ hn hk]
      simp
    rw [Site.horizontalLines, said, ih (k + 1) _ _ (by omega) (by push_cast; push_cast at hd; linarith)]
    split_ifs <;> rfl

/-- **C131 (`origin corrected`, the scale factors).** The message of `_determine_fy` is not about the cell that
is built, nor about the origin.  If no row of the grid is on the path of the star, it is never said.  If one
is, and the grid reaches further than one eclipse duration along the path, then every cell that is built
says it, once. -/
theorem C131_cells_partial (s : Shallot K) (y x : ℕ) :
    (.fin 0 ∉ s.params.dy.data → cellSays s y x = []) ∧
    ∀ m : K, 1 < m → npMax s.params.dx.data = .fin m → 1 ≤ s.numFxfy.toInt → s.params.dy.data.count (.fin 0) = 1 →
      cellSays s y x = if (s.shear.at3 y x 0).isNan then [] else [.debug .originFy] := by
  constructor
  · intro h0
    have none : ∀ fx, Site.fyLines s.params fx = [] := by
      intro fx
      rw [fyLines_eq, List.count_eq_zero.2 h0]
      simp
    have all : ∀ (n : ℕ) (fy r : List (XF K)) res,
        Site.horizontalLines s.params (s.cellOf y x) n fy r = some res → res = [] := by
      refine Site.horizontalLines.partial_correctness _ _ (fun _ _ _ res => res = []) ?_
      intro loop ih n fy r res h
      simp only [none] at h
      split_ifs at h
      · cases h; rfl
      · rcases hl : loop (n + 1) ((Shallot.horizontalScales (s.cellOf y x) n).map Prod.snd ++ fy)
            (Shallot.radii (s.cellOf y x) (Shallot.horizontalScales (s.cellOf y x) n) ++ r) with _ | rest
        · rw [hl] at h; cases h
        · rw [hl] at h
          cases h
          rw [ih _ _ _ _ hl]
          rfl
      · cases h; rfl
    unfold cellSays
    split_ifs
    · rfl
    · cases hq : Site.horizontalLines s.params (s.cellOf y x) 1 [] [] with
      | none => rfl
      | some q => exact all _ _ _ _ hq
  · intro m hm hx hn h0
    unfold cellSays
    split_ifs
    · rfl
    · have hc : (s.cellOf y x).maxX = .fin m := hx
      have hn' : 1 ≤ (s.cellOf y x).num := by
        show 1 ≤ s.numFxfy.toInt.toNat
        omega
      have said : Site.fyLines s.params (Shallot.fxyArray (s.cellOf y x).maxX 1 (s.cellOf y x).num) =
          [.debug .originFy] := by
        rw [fyLines_eq, hc, h0, fxyArray_count_first m hm _ hn']
        simp
      have later := horizontalLines_later s.params (s.cellOf y x) m hm hc hn' (⌈100 * m⌉₊ + 1) 1
      have key : Site.horizontalLines s.params (s.cellOf y x) 1 [] [] = some [.debug .originFy] := by
        rw [Site.horizontalLines, said, later _ _ le_rfl (by push_cast; linarith [Nat.le_ceil (100 * m)])]
        split_ifs <;> rfl
      rw [key]
      rfl

/-! ## The extension -/

theorem number_not_attribute (v : PyVal K) (ci : Bool) (lo hi : PyVal K) :
    number v (.bool ci) lo hi ≠ .error .attributeError := by
  by_cases h : Acceptable ci false v lo hi
  · rw [(C01_number_ok_iff ci false v v lo hi).2 ⟨rfl, h⟩]
    simp
  · obtain ⟨h1, h2⟩ := C01_number_errors ci false v lo hi h
    by_cases hc : (∃ x, IsNumber ci v x) ∧ (∃ x, IsNumber false lo x) ∧ (∃ x, IsNumber false hi x)
    · rw [h1 hc]; simp
    · rw [h2 hc]; simp

theorem except_bind_not {α β : Type} {e : Except Err α} {f : α → Except Err β} (h : e ≠ .error .attributeError)
    (hf : ∀ a, f a ≠ .error .attributeError) : (e >>= f) ≠ .error .attributeError := by
  cases e with
  | error x => exact fun hx => h (by injection hx with hx; rw [hx])
  | ok a => exact hf a

theorem determineDx_not (a b n : PyVal K) : determineDx a b n ≠ .error .attributeError := by
  unfold determineDx
  refine except_bind_not (number_not_attribute _ _ _ _) fun _ =>
    except_bind_not (number_not_attribute _ _ _ _) fun _ => ?_
  split_ifs
  · simp
  · exact except_bind_not (number_not_attribute _ _ _ _) fun _ => by simp

theorem determineDy_not (a b n : PyVal K) : determineDy a b n ≠ .error .attributeError := by
  unfold determineDy
  refine except_bind_not (number_not_attribute _ _ _ _) fun _ =>
    except_bind_not (number_not_attribute _ _ _ _) fun _ => ?_
  split_ifs
  · simp
  · exact except_bind_not (number_not_attribute _ _ _ _) fun _ => by simp

theorem meth_bind_not {S α β : Type} {m : Meth S α} {f : α → Meth S β}
    (h : ∀ s, (m s).1 ≠ .error .attributeError) (hf : ∀ a s, (f a s).1 ≠ .error .attributeError) (s : S) :
    ((m >>= f) s).1 ≠ .error .attributeError := by
  rcases hm : m s with ⟨e | a, s'⟩
  · rw [bind_err _ _ _ _ _ hm]
    have := h s
    rw [hm] at this
    exact fun hx => this (congrArg Except.error (Except.error.inj hx))
  · rw [bind_ok _ _ _ _ _ hm]
    exact hf a s'

/-- Only parameters that do not begin at the origin raise `AttributeError`. -/
theorem extendGrid_attribute (g : GridParams K) :
    (GridParams.extendGrid g).1 = .error .attributeError ↔ g.extendable = false := by
  constructor
  · intro h
    by_contra hx
    have hx : g.extendable = true := by simpa using hx
    refine absurd h ?_
    unfold GridParams.extendGrid
    rw [Meth.get_bind, hx]
    refine meth_bind_not (fun _ => ?_) (fun _ => meth_bind_not (fun _ => ?_) fun _ => meth_bind_not
      (fun _ => determineDx_not _ _ _) fun _ => meth_bind_not (fun _ => by simp) fun _ => meth_bind_not
      (fun _ => determineDy_not _ _ _) fun _ => meth_bind_not (fun _ => by simp) fun _ => meth_bind_not
      (fun _ => by simp) fun _ => meth_bind_not (fun _ => by simp) fun _ => meth_bind_not (fun _ => ?_)
      fun _ _ => by simp) g
    · unfold GridParams.lastOf
      rw [Meth.lift_apply]
      dsimp only
      split <;> simp
    · unfold GridParams.lastOf
      rw [Meth.lift_apply]
      dsimp only
      split <;> simp
    · unfold GridParams.setExtendable
      rw [Meth.lift_apply]
      dsimp only
      repeat' split
      all_goals simp
  · intro h
    rw [extendGrid_not g h]

theorem helpers_says (w : Site K) : Said (Site.shearLines w.grid.params) w (Site.helpers w).2 := ⟨rfl, rfl⟩

theorem onGrid_says {α : Type} (m : Meth (Shallot K) α) (w : Site K) : Said [] w (Site.onGrid m w).2 :=
  ⟨by simp [Site.onGrid], rfl⟩

theorem fillAll_params : Moves (fun s s' : Shallot K => s'.params = s.params) (Shallot.fillAll (K := K)) := by
  have pre : Pre (fun s s' : Shallot K => s'.params = s.params) := ⟨fun _ => rfl, fun h k => k.trans h⟩
  have step : ∀ (e : Except Err (GProp K)) (f : GProp K → Shallot K → Shallot K)
      (m : Meth (Shallot K) Unit), (∀ a s, (f a s).params = s.params) →
      Moves (fun s s' : Shallot K => s'.params = s.params) m →
      Moves (fun s s' : Shallot K => s'.params = s.params)
        (Meth.lift e >>= fun a => Meth.modify (f a) >>= fun _ => m) := fun e f m hf hm =>
    Moves.bind pre (Moves.lift pre e) fun a => Moves.bind pre (Moves.modify (hf a)) fun _ => hm
  refine Moves.get_bind fun s => ?_
  refine step _ (fun a s => { s with diskRadius := a }) _ (fun _ _ => rfl) ?_ s
  refine step _ (fun a s => { s with inclination := a }) _ (fun _ _ => rfl) ?_
  refine step _ (fun a s => { s with tilt := a }) _ (fun _ _ => rfl) ?_
  refine step _ (fun a s => { s with fxMap := a }) _ (fun _ _ => rfl) ?_
  exact Moves.bind pre (Moves.lift pre _) fun a => Moves.modify fun _ => rfl

/-- **C131 (the extension).** `_extend_grid` says that the parameters can not be extended if and only if they do
not begin at the origin; then it returns and leaves everything else as it was.  Otherwise it says whether it
corrected the origin of the extended grid, or nothing if the parameters raised. -/
theorem C131_extension (w : Site K) (r : Except Err Unit) (w' : Site K) (h : Site.extendGrid w = (r, w')) :
    (w.grid.params.extendable = false →
      r = .ok () ∧ w'.grid = w.grid ∧ w'.fs = w.fs ∧ Said [.debug .notExtended] w w') ∧
    (w.grid.params.extendable = true →
      (r = .ok () → Said (Site.shearLines w'.grid.params) w w') ∧
      (Said (Site.shearLines w'.grid.params) w w' ∨ Said [] w w')) := by
  constructor
  · intro hx
    unfold Site.extendGrid at h
    rw [extendGrid_not _ hx] at h
    cases h
    exact ⟨rfl, rfl, rfl, ⟨rfl, rfl⟩⟩
  · intro hx
    have hn : (GridParams.extendGrid w.grid.params).1 ≠ .error .attributeError := by
      rw [Ne, extendGrid_attribute, hx]
      simp
    unfold Site.extendGrid at h
    rcases hg : GridParams.extendGrid w.grid.params with ⟨e | a, g⟩
    · rw [hg] at h hn
      have h' : ((do
          Site.onGrid (Meth.modify ({ · with params := g }))
          Meth.throw e : Meth (Site K) Unit)) w = (r, w') := by
        cases e <;> first | exact h | exact absurd rfl hn
      cases h'
      exact ⟨fun hr => (by cases hr), Or.inr ⟨by simp [Site.onGrid], rfl⟩⟩
    · rw [hg] at h
      have h' : (Site.onGrid Shallot.fillAll >>= fun _ =>
          Site.onGrid (Meth.modify fun s => { s with diagnostics := s.diagnostics.map Diagnostics.extend }))
          ⟨Shallot.helpers { w.grid with params := g }, w.fs, w.level,
            w.log ++ (Site.shearLines g).map fun l => (w.level, l)⟩ = (r, w') := h
      have hp := fillAll_params (Shallot.helpers { w.grid with params := g })
      have said : w'.grid.params = g ∧ w'.level = w.level ∧
          w'.log = w.log ++ (Site.shearLines g).map fun l => (w.level, l) := by
        rcases hf : Shallot.fillAll (Shallot.helpers { w.grid with params := g }) with ⟨e | u, s⟩
        · have : Site.onGrid Shallot.fillAll ⟨Shallot.helpers { w.grid with params := g }, w.fs, w.level,
              w.log ++ (Site.shearLines g).map fun l => (w.level, l)⟩ = (.error e, ⟨s, w.fs, w.level,
              w.log ++ (Site.shearLines g).map fun l => (w.level, l)⟩) := by
            unfold Site.onGrid
            rw [hf]
          rw [bind_err _ _ _ _ _ this] at h'
          cases h'
          rw [hf] at hp
          exact ⟨hp, rfl, rfl⟩
        · have : Site.onGrid Shallot.fillAll ⟨Shallot.helpers { w.grid with params := g }, w.fs, w.level,
              w.log ++ (Site.shearLines g).map fun l => (w.level, l)⟩ = (.ok u, ⟨s, w.fs, w.level,
              w.log ++ (Site.shearLines g).map fun l => (w.level, l)⟩) := by
            unfold Site.onGrid
            rw [hf]
          rw [bind_ok _ _ _ _ _ this] at h'
          cases h'
          rw [hf] at hp
          exact ⟨hp, rfl, rfl⟩
      obtain ⟨s1, s2, s3⟩ := said
      rw [s1]
      exact ⟨fun _ => ⟨s3, s2⟩, Or.inl ⟨s3, s2⟩⟩

/-! ## The constructor -/

theorem unchanged_buildRows : ∀ n y, Moves Unchanged (Shallot.buildRows (K := K) n y)
  | 0, _ => Moves.pure Unchanged.pre ()
  | n + 1, y => Moves.get_bind fun s => Moves.bind Unchanged.pre (unchanged_buildRow y _ _)
      (fun _ => unchanged_buildRows n (y + 1)) s

theorem unchanged_recolorDiagnostic : Moves Unchanged (Shallot.recolorDiagnostic (K := K)) := by
  refine Moves.get_bind fun s => ?_
  cases s.diagnosticMap with
  | none => exact Unchanged.pre.refl s
  | some p => exact unchanged_onProp _ _ s

theorem unchanged_onGradient {α : Type} (i : ℕ) (m : Meth (GGrad K) α) :
    Moves Unchanged (Shallot.onGradient i m) := by
  intro s
  unfold Shallot.onGradient
  cases (s.gradients.getD [])[i]? <;> exact ⟨rfl, rfl, rfl, rfl⟩

theorem unchanged_recolorGradients : ∀ n i, Moves Unchanged (Shallot.recolorGradients (K := K) n i)
  | 0, _ => Moves.pure Unchanged.pre ()
  | n + 1, i => Moves.bind Unchanged.pre (unchanged_onGradient _ _) fun _ => unchanged_recolorGradients n (i + 1)

theorem unchanged_build (y : ℕ) : Moves Unchanged (Shallot.build (K := K) y) := by
  have pre := Unchanged.pre (K := K)
  have rest : Moves Unchanged (do
      let s ← Meth.get
      Shallot.buildRows (s.params.sliceShape.1 - y) y
      Shallot.recolorAll : Meth (Shallot K) Unit) := by
    refine Moves.get_bind fun s => Moves.bind pre (unchanged_buildRows _ _) (fun _ => ?_) s
    unfold Shallot.recolorAll
    repeat' first
      | exact unchanged_onProp _ _
      | refine Moves.bind pre (unchanged_onProp _ _) fun _ => ?_
    refine Moves.bind pre unchanged_recolorDiagnostic fun _ => ?_
    exact Moves.get_bind fun s => unchanged_recolorGradients _ _ s
  by_cases hy : y = 0
  · have : Shallot.build (K := K) y = (Shallot.initialise >>= fun _ => do
        let s ← Meth.get
        Shallot.buildRows (s.params.sliceShape.1 - y) y
        Shallot.recolorAll) := by
      unfold Shallot.build
      rw [if_pos hy]
    rw [this]
    exact Moves.bind pre unchanged_initialise fun _ => rest
  · have : Shallot.build (K := K) y = (do
        let s ← Meth.get
        Shallot.buildRows (s.params.sliceShape.1 - y) y
        Shallot.recolorAll) := by
      unfold Shallot.build
      rw [if_neg hy]
    rw [this]
    exact rest

theorem build_params (saving : Bool) (y : ℕ) (w w' : Site K) (h : Site.build saving y w = (.ok (), w')) :
    w'.grid.params = w.grid.params := by
  have h1 := (C131_build_files _ _ _ _ _ h).1
  unfold Shallot.buildIn at h1
  split at h1
  · cases congrArg Prod.fst h1
  · have h2 := unchanged_build y w.grid
    split at h1
    · rename_i hb
      rw [hb] at h2
      have := congrArg Prod.fst h1
      injection this with this
      have this : _ = w'.grid := this
      rw [← this]
      exact h2.params
    · cases congrArg Prod.fst h1

theorem build_initialises (saving : Bool) (w w' : Site K) (h : Site.build saving 0 w = (.ok (), w')) :
    (Shallot.initialise w.grid).1 = .ok () := by
  have unf : Site.build (K := K) saving 0 =
      (Site.onGrid Shallot.initialise >>= fun _ => afterInit saving 0) := by
    unfold Site.build afterInit
    cases saving <;> simp only [if_true, Bool.false_eq_true, reduceIte] <;> rfl
  rw [unf] at h
  rcases hi : (Shallot.initialise w.grid) with ⟨e | u, s⟩
  · have : Site.onGrid Shallot.initialise w = (.error e, { w with grid := s }) := by
      unfold Site.onGrid
      rw [hi]
    rw [bind_err _ _ _ _ _ this] at h
    cases h
  · rfl

/-- The only messages of a build. -/
theorem build_only (saving : Bool) (y : ℕ) (w : Site K) (r : Except Err Unit) (w' : Site K)
    (h : Site.build saving y w = (r, w')) : ∃ ls, Said ls w w' ∧
    ∀ l ∈ ls, l = .debug .cleared ∨ l = .debug .deleted ∨ l = .debug .originFy ∨ ∃ k n, l = .info (.building k n) := by
  by_cases hi : y = 0 → (Shallot.initialise w.grid).1 = .ok ()
  · obtain ⟨ls, a, b, -⟩ := C131_build_says saving y w r w' h hi
    refine ⟨_, a, fun l hl => ?_⟩
    rcases List.mem_append.1 hl with hl | hl
    · rcases List.mem_append.1 hl with hl | hl
      · split_ifs at hl
        · exact Or.inl (by simpa using hl)
        · cases hl
      · rcases b l hl with h1 | ⟨k, h1⟩
        · exact Or.inr (Or.inr (Or.inl h1))
        · exact Or.inr (Or.inr (Or.inr ⟨k, _, h1⟩))
    · split_ifs at hl
      · exact Or.inr (Or.inl (by simpa using hl))
      · cases hl
  · push Not at hi
    obtain ⟨rfl, hi⟩ := hi
    have unf : Site.build (K := K) saving 0 =
        (Site.onGrid Shallot.initialise >>= fun _ => afterInit saving 0) := by
      unfold Site.build afterInit
      cases saving <;> simp only [if_true, Bool.false_eq_true, reduceIte] <;> rfl
    rw [unf] at h
    rcases hx : (Shallot.initialise w.grid) with ⟨e | u, s⟩
    · have : Site.onGrid Shallot.initialise w = (.error e, { w with grid := s }) := by
        unfold Site.onGrid
        rw [hx]
      rw [bind_err _ _ _ _ _ this] at h
      cases h
      exact ⟨[], ⟨by simp, rfl⟩, fun l hl => (by cases hl)⟩
    · rw [hx] at hi
      exact absurd rfl hi

theorem shearLines_only (g : GridParams K) : ∀ l ∈ Site.shearLines g, l = .debug .originShear := by
  intro l hl
  unfold Site.shearLines at hl
  dsimp only at hl
  split_ifs at hl
  · simpa using hl
  · cases hl

/-- What the end of the constructor says. -/
theorem finish_says (w : Site K) (r : Except Err Unit) (w' : Site K) (h : Site.finish w = (r, w')) : ∃ ls,
    Said ls w w' ∧
    (∀ l ∈ ls, l = .debug .notExtended ∨ l = .debug .originShear ∨ ∃ x, l = .info (.deviation x)) ∧
    (r = .ok () → ls = (if w.grid.params.extendable then Site.shearLines w'.grid.params else [.debug .notExtended]) ++
      [.info (.deviation (GLog.largest w'.grid))]) := by
  unfold Site.finish at h
  rcases hx : Site.extendGrid w with ⟨r1, w1⟩
  have ex := C131_extension w r1 w1 hx
  have last : ∀ w1 : Site K, ∃ w2, Site.diagnose w1 = (.ok (), w2) ∧ w2.grid.params = w1.grid.params ∧
      Said [.info (.deviation (GLog.largest w2.grid))] w1 w2 := by
    intro w1
    unfold Site.diagnose
    rw [bind_ok (Site.onGrid Shallot.diagnose) _ w1 _ ()
      (show Site.onGrid Shallot.diagnose w1 = (.ok (), { w1 with grid := (Shallot.diagnose w1.grid).2 }) by
        unfold Site.onGrid
        rw [diagnose_ok])]
    refine ⟨_, rfl, ?_, ⟨rfl, rfl⟩⟩
    show (Shallot.diagnose w1.grid).2.params = w1.grid.params
    rw [diagnose_ok]
  cases r1 with
  | error e =>
    rw [bind_err _ _ _ _ _ hx] at h
    cases h
    by_cases hb : w.grid.params.extendable = true
    · rcases (ex.2 hb).2 with s | s
      · exact ⟨_, s, fun l hl => Or.inr (Or.inl (shearLines_only _ l hl)), fun hr => (by cases hr)⟩
      · exact ⟨_, s, fun l hl => (by cases hl), fun hr => (by cases hr)⟩
    · exact absurd (ex.1 (by simpa using hb)).1 (by simp)
  | ok u =>
    rw [bind_ok _ _ _ _ _ hx] at h
    obtain ⟨w2, k1, k2, k3⟩ := last w1
    rw [k1] at h
    injection h with h1 h2
    subst h1 h2
    by_cases hb : w.grid.params.extendable = true
    · refine ⟨_, ((ex.2 hb).1 rfl).trans k3, fun l hl => ?_, fun _ => by rw [if_pos hb, k2]⟩
      rcases List.mem_append.1 hl with hl | hl
      · exact Or.inr (Or.inl (shearLines_only _ l hl))
      · exact Or.inr (Or.inr ⟨_, by simpa using hl⟩)
    · refine ⟨_, (ex.1 (by simpa using hb)).2.2.2.trans k3, fun l hl => ?_, fun _ => by rw [if_neg hb]⟩
      rcases List.mem_append.1 hl with hl | hl
      · exact Or.inl (by simpa using hl)
      · exact Or.inr (Or.inr ⟨_, by simpa using hl⟩)

/-- **C131 (the messages of the constructor).** If `__init__` returns, it has said, in this order: whether the
origin of the shear was corrected; that a temporary directory was cleared, if it saves and there was one; the
rows and the cells of each; that the temporary directory was deleted, if it saves or there was one; the message
that the parameters can not be extended, or whether the origin was corrected in the extended grid; and the
largest deviation.  If it raises it has said nothing else either: never that diagnostics or gradients were not
found. -/
theorem C131_new_says (a b c : PyVal K) (g : GridParams K) (w : Site K) (r : Except Err Unit) (w' : Site K)
    (h : Site.new a b c g w = (r, w')) : ∃ ls, Said ls w w' ∧
    (∀ l ∈ ls, l ≠ .debug .noDiagnostics ∧ l ≠ .debug .noGradients) ∧
    (r = .ok () → ∃ n keep saving, number a (.bool true) (.int 1) = .ok n ∧ boolean b = .ok keep ∧
      boolean c = .ok saving ∧
      ls = Site.shearLines g ++
        (if saving = true ∧ w.fs.exists? tempDir = true then [.debug .cleared] else []) ++
        (List.range g.sliceShape.1).flatMap (rowSays (Shallot.bare g n keep) g.sliceShape.1) ++
        (if saving = true ∨ w.fs.exists? tempDir = true then [.debug .deleted] else []) ++
        (if g.extendable then Site.shearLines w'.grid.params else [.debug .notExtended]) ++
        [.info (.deviation (GLog.largest w'.grid))]) ∧
    (r = .ok () → w'.fs.exists? tempDir = false) := by
  unfold Site.new at h
  cases ha : number a (.bool true) (.int 1) with
  | error e =>
    rw [ha, Meth.lift_error_bind] at h
    cases h
    exact ⟨[], Spec.Said.nil _, fun l hl => (by cases hl), fun hr => (by cases hr), fun hr => (by cases hr)⟩
  | ok n =>
  rw [ha, Meth.lift_ok_bind] at h
  cases hb : boolean b with
  | error e =>
    rw [hb, Meth.lift_error_bind] at h
    cases h
    exact ⟨[], Spec.Said.nil _, fun l hl => (by cases hl), fun hr => (by cases hr), fun hr => (by cases hr)⟩
  | ok keep =>
  rw [hb, Meth.lift_ok_bind, Meth.modify_bind] at h
  have hl : Site.helpers { w with grid := Shallot.bare g n keep } =
      (.ok (), ⟨Shallot.bare g n keep, w.fs, w.level,
        w.log ++ (Site.shearLines g).map fun l => (w.level, l)⟩) := rfl
  rw [bind_ok _ _ _ _ _ hl] at h
  have s1 : Said (Site.shearLines g) w
      ⟨Shallot.bare g n keep, w.fs, w.level, w.log ++ (Site.shearLines g).map fun l => (w.level, l)⟩ :=
    ⟨rfl, rfl⟩
  have sh : ∀ l ∈ Site.shearLines g, l ≠ .debug .noDiagnostics ∧ l ≠ .debug .noGradients := by
    intro l hl
    rw [shearLines_only g l hl]
    exact ⟨by simp, by simp⟩
  cases hc : boolean c with
  | error e =>
    rw [hc, Meth.lift_error_bind] at h
    cases h
    exact ⟨_, s1, sh, fun hr => (by cases hr), fun hr => (by cases hr)⟩
  | ok saving =>
  rw [hc, Meth.lift_ok_bind] at h
  rcases hd : Site.build saving 0 ⟨Shallot.bare g n keep, w.fs, w.level,
      w.log ++ (Site.shearLines g).map fun l => (w.level, l)⟩ with ⟨e | u, w1⟩
  · rw [bind_err _ _ _ _ _ hd] at h
    cases h
    obtain ⟨ls, k1, k2⟩ := build_only _ _ _ _ _ hd
    refine ⟨_, s1.trans k1, fun l hl => ?_, fun hr => (by cases hr), fun hr => (by cases hr)⟩
    rcases List.mem_append.1 hl with hl | hl
    · exact sh l hl
    · rcases k2 l hl with rfl | rfl | rfl | ⟨_, _, rfl⟩ <;> exact ⟨by simp, by simp⟩
  · rw [bind_ok _ _ _ _ _ hd] at h
    obtain ⟨ls, k1, k2⟩ := build_only _ _ _ _ _ hd
    obtain ⟨ls', m1, m2, m3, m4⟩ := C131_build_says _ _ _ _ _ hd fun _ => build_initialises _ _ _ hd
    obtain ⟨lf, f1, f2, f3⟩ := finish_says _ _ _ h
    have hp : w1.grid.params = g := build_params _ _ _ _ hd
    have hm := m3 rfl
    subst hm
    refine ⟨_, (s1.trans m1).trans f1, fun l hl => ?_, fun hr => ⟨n, keep, saving, rfl, rfl, rfl, ?_⟩, fun hr => ?_⟩
    · rcases List.mem_append.1 hl with hl | hl
      · rcases List.mem_append.1 hl with hl | hl
        · exact sh l hl
        · rcases List.mem_append.1 hl with hl | hl
          · rcases List.mem_append.1 hl with hl | hl
            · split_ifs at hl
              · rw [List.mem_singleton.1 hl]; exact ⟨by simp, by simp⟩
              · cases hl
            · rcases m2 l hl with rfl | ⟨_, rfl⟩ <;> exact ⟨by simp, by simp⟩
          · split_ifs at hl
            · rw [List.mem_singleton.1 hl]; exact ⟨by simp, by simp⟩
            · cases hl
      · rcases f2 l hl with rfl | rfl | ⟨_, rfl⟩ <;> exact ⟨by simp, by simp⟩
    · rw [f3 hr, hp]
      simp only [List.append_assoc, true_and, List.range_eq_range', Nat.sub_zero]
      rfl
    · rw [(finish_files _ _ _ h).2.1]
      exact m4 rfl

/-! ## `load` -/

/-- The only message of `_load_grid_attributes`, and when it is said. -/
theorem loadAttributes_says (d : Path) (w : Site K) (r : Except Err Unit) (w' : Site K)
    (h : Site.loadAttributes d w = (r, w')) : ∃ ls, Said ls w w' ∧ (∀ l ∈ ls, l = .debug .noDiagnostics) ∧
    (r = .ok () → ((∃ e, Diagnostics.load w.fs d = .error e) ↔ .debug .noDiagnostics ∈ ls)) := by
  have lifts : ∀ {α : Type} (e : Except Err α) (f : α → Meth (Site K) Unit) (w : Site K),
      (∃ x, e = .error x ∧ (Meth.lift e >>= f) w = (.error x, w)) ∨
      ∃ a, e = .ok a ∧ (Meth.lift e >>= f) w = f a w := by
    intro α e f w
    cases e with
    | error x => exact Or.inl ⟨x, rfl, rfl⟩
    | ok a => exact Or.inr ⟨a, rfl, rfl⟩
  have puts : ∀ (f : Shallot K → Shallot K) (k : Unit → Meth (Site K) Unit) (w : Site K),
      (Site.onGrid (Meth.modify f) >>= k) w = k () { w with grid := f w.grid } := fun _ _ _ => rfl
  unfold Site.loadAttributes at h
  have stop : ∀ (x : Err) (s : Shallot K), ((.error x : Except Err Unit), { w with grid := s }) = (r, w') →
      ∃ ls, Said ls w w' ∧ (∀ l ∈ ls, l = .debug .noDiagnostics) ∧
        (r = .ok () → ((∃ e, Diagnostics.load w.fs d = .error e) ↔ .debug .noDiagnostics ∈ ls)) := by
    intro x s h
    cases h
    exact ⟨[], ⟨by simp, rfl⟩, fun l hl => (by cases hl), fun hr => (by cases hr)⟩
  rcases lifts (loadScalar w.fs (d ++ ["num_fxfy.npy"])) _ _ with ⟨x, e, q⟩ | ⟨n, e, q⟩ <;> rw [q] at h
  · exact stop x _ h
  rw [puts] at h
  rcases lifts (GridParams.load w.fs d) _ _ with ⟨x, e, q⟩ | ⟨g, e, q⟩ <;> rw [q] at h
  · exact stop x _ h
  rw [puts] at h
  rcases lifts (GProp.load w.fs d .diskRadius .eclipseDuration) _ _ with ⟨x, e, q⟩ | ⟨a, e, q⟩ <;> rw [q] at h
  · exact stop x _ h
  rw [puts] at h
  rcases lifts (GProp.load w.fs d .inclination .degree) _ _ with ⟨x, e, q⟩ | ⟨b, e, q⟩ <;> rw [q] at h
  · exact stop x _ h
  rw [puts] at h
  rcases lifts (GProp.load w.fs d .tilt .degree) _ _ with ⟨x, e, q⟩ | ⟨c, e, q⟩ <;> rw [q] at h
  · exact stop x _ h
  rw [puts] at h
  rcases lifts (GProp.load w.fs d .fxMap .none) _ _ with ⟨x, e, q⟩ | ⟨fx, e, q⟩ <;> rw [q] at h
  · exact stop x _ h
  rw [puts] at h
  rcases lifts (GProp.load w.fs d .fyMap .none) _ _ with ⟨x, e, q⟩ | ⟨fy, e, q⟩ <;> rw [q] at h
  · exact stop x _ h
  rw [puts] at h
  cases hd : Diagnostics.load w.fs d with
  | ok diag =>
    by_cases hx : (w.fs.listdir d).all hasExtension = true
    · simp only [hd, hx, if_true] at h
      injection h with h1 h2
      subst h1 h2
      exact ⟨[], ⟨by simp [Site.onGrid], rfl⟩, fun l hl => (by cases hl), fun _ => by simp⟩
    · simp only [hd, if_neg hx] at h
      injection h with h1 h2
      subst h1 h2
      exact ⟨[], ⟨by simp [Site.onGrid], rfl⟩, fun l hl => (by cases hl), fun hr => (by cases hr)⟩
  | error e =>
    have he : e = .loadError := by
      unfold Diagnostics.load at hd
      split at hd
      · cases hd
      · injection hd with hd; exact hd.symm
    subst he
    by_cases hx : (w.fs.listdir d).all hasExtension = true
    · simp only [hd, hx, if_true] at h
      injection h with h1 h2
      subst h1 h2
      exact ⟨[.debug .noDiagnostics], ⟨rfl, rfl⟩, fun l hl => by simpa using hl, fun _ => by simp⟩
    · simp only [hd, if_neg hx] at h
      injection h with h1 h2
      subst h1 h2
      exact ⟨[.debug .noDiagnostics], ⟨rfl, rfl⟩, fun l hl => by simpa using hl, fun hr => (by cases hr)⟩

theorem resume_says (d : Path) (w : Site K) (r : Except Err Unit) (w' : Site K)
    (h : Site.resume d w = (r, w')) : ∃ ls, Said ls w w' ∧
    (∀ l ∈ ls, l ≠ .debug .noDiagnostics ∧ l ≠ .debug .noGradients) ∧
    (w.fs.exists? (d ++ ["y_value.npy"]) = false →
      (∀ l ∈ ls, l ≠ .debug .cleared ∧ l ≠ .debug .deleted ∧ l ≠ .debug .originFy) ∧ w'.fs = w.fs) ∧
    (r = .ok () → w.fs.exists? (d ++ ["y_value.npy"]) = true →
      .debug .deleted ∈ ls ∧ w'.fs.exists? tempDir = false) := by
  have other : ∀ l : Line K, (l = .debug .notExtended ∨ l = .debug .originShear ∨ ∃ x, l = .info (.deviation x)) →
      (l ≠ .debug .noDiagnostics ∧ l ≠ .debug .noGradients) ∧
      l ≠ .debug .cleared ∧ l ≠ .debug .deleted ∧ l ≠ .debug .originFy := by
    rintro l (rfl | rfl | ⟨x, rfl⟩) <;> simp
  unfold Site.resume at h
  rw [Meth.get_bind] at h
  by_cases hx : w.fs.exists? (d ++ ["y_value.npy"]) = true
  · rw [if_pos hx] at h
    have no : ¬ w.fs.exists? (d ++ ["y_value.npy"]) = false := by rw [hx]; simp
    cases hv : loadScalar w.fs (d ++ ["y_value.npy"]) with
    | error e =>
      rw [hv, Meth.lift_error_bind] at h
      cases h
      exact ⟨[], Spec.Said.nil _, fun l hl => (by cases hl), fun hr => absurd hr no, fun hr => (by cases hr)⟩
    | ok v =>
      rw [hv, Meth.lift_ok_bind] at h
      cases hn : number v (.bool true) (.int 0) (.int (w.grid.params.dy.shape.headD 0 : ℕ)) with
      | error e =>
        rw [hn, Meth.lift_error_bind] at h
        cases h
        exact ⟨[], Spec.Said.nil _, fun l hl => (by cases hl), fun hr => absurd hr no, fun hr => (by cases hr)⟩
      | ok y =>
        rw [hn, Meth.lift_ok_bind] at h
        rcases hb : Site.build true y.toInt.toNat w with ⟨e | u, w1⟩
        · rw [bind_err _ _ _ _ _ hb] at h
          cases h
          obtain ⟨ls, k1, k2⟩ := build_only _ _ _ _ _ hb
          refine ⟨ls, k1, fun l hl => ?_, fun hr => absurd hr no, fun hr => (by cases hr)⟩
          rcases k2 l hl with rfl | rfl | rfl | ⟨_, _, rfl⟩ <;> simp
        · rw [bind_ok _ _ _ _ _ hb] at h
          obtain ⟨ls, k1, k2⟩ := build_only _ _ _ _ _ hb
          obtain ⟨ls', m1, m2, m3, m4⟩ := C131_build_says _ _ _ _ _ hb fun hy => by
            rw [hy] at hb
            exact build_initialises _ _ _ hb
          obtain ⟨lf, f1, f2, -⟩ := finish_says _ _ _ h
          refine ⟨_, m1.trans f1, fun l hl => ?_, fun hr => absurd hr no, fun hr _ => ⟨?_, ?_⟩⟩
          · rcases List.mem_append.1 hl with hl | hl
            · rcases List.mem_append.1 hl with hl | hl
              · rcases List.mem_append.1 hl with hl | hl
                · split_ifs at hl
                  · rw [List.mem_singleton.1 hl]; simp
                  · cases hl
                · rcases m2 l hl with rfl | ⟨_, rfl⟩ <;> simp
              · split_ifs at hl
                · rw [List.mem_singleton.1 hl]; simp
                · cases hl
            · exact (other l (f2 l hl)).1
          · simp
          · rw [(finish_files _ _ _ h).2.1]
            exact m4 rfl
  · rw [if_neg hx] at h
    obtain ⟨lf, f1, f2, -⟩ := finish_says w r w' h
    exact ⟨lf, f1, fun l hl => (other l (f2 l hl)).1, fun _ => ⟨fun l hl => (other l (f2 l hl)).2,
      (finish_files _ _ _ h).2.1⟩, fun _ hr => absurd hr hx⟩

theorem shown_split (log : List (ℕ × Line K)) (early late : List (Line K)) (level : ℕ) (w w' : Site K)
    (hw : w.log = log) (h : w'.log = log ++ early.map (fun l => (50, l)) ++ late.map (fun l => (level, l))) :
    w'.shown = w.shown ++ late.filter fun l => decide (level ≤ l.level) := by
  unfold Site.shown
  rw [h, hw, List.filter_append, List.filter_append, List.map_append, List.map_append]
  have none : (early.map fun l => ((50 : ℕ), l)).filter (fun e => decide (e.1 ≤ e.2.level)) = [] := by
    rw [List.filter_eq_nil_iff]
    intro e he
    obtain ⟨l, -, rfl⟩ := List.mem_map.1 he
    cases l <;> simp [Line.level]
  rw [none]
  simp only [List.map_nil, List.append_nil, List.append_cancel_left_eq]
  rw [List.filter_map, List.map_map]
  exact List.map_id _

/-- **C131 (the messages of `load`).** What `load` says falls into a part that is said while the logger of the
object has the level `CRITICAL`, so that none of it is shown whatever level the caller asks for, and a part that
is said at the level asked for.  That the diagnostics were not found belongs to the first part: it is said
if and only if they were not found, and it is never shown.  That the gradients were not found is never said.
If `load` returns there is no temporary directory any more; that it was deleted is said in the first part if there
was one at the beginning, and in the second part if and only if the directory has a row to resume from. -/
theorem C131_load_says (d : Path) (level : ℕ) (w : Site K) (r : Except Err Unit) (w' : Site K)
    (h : Site.load d level w = (r, w')) : ∃ early late : List (Line K),
    w'.log = w.log ++ early.map (fun l => (50, l)) ++ late.map (fun l => (level, l)) ∧
    w'.shown = w.shown ++ (late.filter fun l => decide (level ≤ l.level)) ∧
    .debug .noGradients ∉ early ∧ .debug .noGradients ∉ late ∧ .debug .noDiagnostics ∉ late ∧
    (r = .ok () →
      (.debug .noDiagnostics ∈ early ↔ ∃ e, Diagnostics.load (cleaned w.fs) d = .error e) ∧
      (.debug .deleted ∈ early ↔ w.fs.exists? tempDir = true) ∧
      (.debug .deleted ∈ late ↔ (cleaned w.fs).exists? (d ++ ["y_value.npy"]) = true) ∧
      w'.fs.exists? tempDir = false) := by
  suffices hs : ∃ early late : List (Line K),
      w'.log = w.log ++ early.map (fun l => (50, l)) ++ late.map (fun l => (level, l)) ∧
      .debug .noGradients ∉ early ∧ .debug .noGradients ∉ late ∧ .debug .noDiagnostics ∉ late ∧
      (r = .ok () →
        (.debug .noDiagnostics ∈ early ↔ ∃ e, Diagnostics.load (cleaned w.fs) d = .error e) ∧
        (.debug .deleted ∈ early ↔ w.fs.exists? tempDir = true) ∧
        (.debug .deleted ∈ late ↔ (cleaned w.fs).exists? (d ++ ["y_value.npy"]) = true) ∧
        w'.fs.exists? tempDir = false) by
    obtain ⟨early, late, h1, h2⟩ := hs
    exact ⟨early, late, h1, shown_split _ _ _ _ _ _ rfl h1, h2⟩
  unfold Site.load at h
  cases hg : GridParams.new (K := K) (.int 0) (.int 1) (.int 2) (.int 0) (.int 1) (.int 2) (.int 2) (.int 2) with
  | error e =>
    rw [hg, Meth.lift_error_bind] at h
    cases h
    exact ⟨[], [], by simp, by simp, by simp, by simp, fun hr => (by cases hr)⟩
  | ok g =>
  rw [hg, Meth.lift_ok_bind, Meth.modify_bind] at h
  rcases hn : Site.new (.int 100) (.bool false) (.bool false) g { w with level := 50 } with ⟨e | u, w1⟩
  · rw [bind_err _ _ _ _ _ hn] at h
    cases h
    obtain ⟨ls, k1, k2, -⟩ := C131_new_says _ _ _ _ _ _ _ hn
    exact ⟨ls, [], by rw [k1.1]; simp, fun hm => (k2 _ hm).2 rfl, by simp, by simp, fun hr => (by cases hr)⟩
  rw [bind_ok _ _ _ _ _ hn] at h
  obtain ⟨ls, k1, k2, k3, k4⟩ := C131_new_says _ _ _ _ _ _ _ hn
  have fs1 : w1.fs = cleaned w.fs := by
    have f1 := (C131_new_files _ _ _ _ _ _ _ hn).1
    have plain := newIn_plain (.int 100) (.bool false) g w.fs
    rcases hnew : Shallot.new (.int 100) (.bool false) g with ⟨e | s, g'⟩
    · obtain ⟨fs', p1, -⟩ := plain.2 e g' hnew
      rw [f1] at p1
      cases congrArg Prod.fst p1
    · have p1 := plain.1 s g' hnew
      rw [f1] at p1
      exact congrArg Prod.snd p1
  have del : Line.debug .deleted ∈ ls ↔ w.fs.exists? tempDir = true := by
    obtain ⟨n, keep, saving, -, -, b3, b4⟩ := k3 rfl
    have hsv : saving = false := by
      have : boolean (.bool false : PyVal K) = .ok false := rfl
      rw [this] at b3
      injection b3 with b3
      exact b3.symm
    subst hsv
    rw [b4]
    have n1 : Line.debug .deleted ∉ Site.shearLines g := fun hm => by cases shearLines_only _ _ hm
    have n2 : Line.debug .deleted ∉ Site.shearLines w1.grid.params := fun hm => by cases shearLines_only _ _ hm
    have n3 : Line.debug .deleted ∉ (List.range g.sliceShape.1).flatMap
        (rowSays (Shallot.bare g n keep) g.sliceShape.1) := by
      intro hm
      obtain ⟨y, -, hy⟩ := List.mem_flatMap.1 hm
      unfold rowSays at hy
      rcases List.mem_cons.1 hy with hy | hy
      · cases hy
      · obtain ⟨x, -, hx⟩ := List.mem_flatMap.1 hy
        cases cellSays_only _ _ _ _ hx
    have n4 : Line.debug .deleted ∉ (if g.extendable then Site.shearLines w1.grid.params else [.debug .notExtended]) := by
      split_ifs
      · exact n2
      · simp
    simp only [List.mem_append, n1, n3, n4, Bool.false_eq_true, false_and, if_false, false_or, or_false]
    split_ifs with hx
    · simp [hx]
    · simp [hx]
  rcases hl : Site.loadAttributes d w1 with ⟨e | u, w2⟩
  · rw [bind_err _ _ _ _ _ hl] at h
    cases h
    obtain ⟨la, a1, a2, -⟩ := loadAttributes_says _ _ _ _ hl
    refine ⟨ls ++ la, [], ?_, fun hm => ?_, by simp, by simp, fun hr => (by cases hr)⟩
    · have := (k1.trans a1).1
      rw [this]
      simp
    · rcases List.mem_append.1 hm with hm | hm
      · exact (k2 _ hm).2 rfl
      · cases a2 _ hm
  rw [bind_ok _ _ _ _ _ hl] at h
  obtain ⟨la, a1, a2, a3⟩ := loadAttributes_says _ _ _ _ hl
  have fs2 : w2.fs = cleaned w.fs := (loadAttributes_files _ _ _ _ hl).2.1.trans fs1
  have hh : Site.helpers w2 = (.ok (), ⟨Shallot.helpers w2.grid, w2.fs, w2.level,
      w2.log ++ (Site.shearLines w2.grid.params).map fun l => (w2.level, l)⟩) := rfl
  rw [bind_ok _ _ _ _ _ hh, Meth.modify_bind] at h
  have s3 : Said (Site.shearLines w2.grid.params) w2 ⟨Shallot.helpers w2.grid, w2.fs, w2.level,
      w2.log ++ (Site.shearLines w2.grid.params).map fun l => (w2.level, l)⟩ := ⟨rfl, rfl⟩
  obtain ⟨late, r1, r2, r3, r4⟩ := resume_says d _ _ _ h
  dsimp only at r1 r3 r4
  have all := (k1.trans a1).trans s3
  have mem : ∀ l : Line K, l ∈ ls ++ la ++ Site.shearLines w2.grid.params ↔
      l ∈ ls ∨ l ∈ la ∨ l ∈ Site.shearLines w2.grid.params := by
    intro l
    simp only [List.mem_append, or_assoc]
  refine ⟨ls ++ la ++ Site.shearLines w2.grid.params, late, ?_, ?_, fun hm => (r2 _ hm).2 rfl,
    fun hm => (r2 _ hm).1 rfl, fun hr => ⟨?_, ?_, ?_, ?_⟩⟩
  · rw [r1.1]
    have e : (w2.log ++ (Site.shearLines w2.grid.params).map fun l => (w2.level, l)) =
        w.log ++ (ls ++ la ++ Site.shearLines w2.grid.params).map fun l => (50, l) := all.1
    show (w2.log ++ (Site.shearLines w2.grid.params).map fun l => (w2.level, l)) ++ _ = _
    rw [e]
  · rw [mem]
    rintro (hm | hm | hm)
    · exact (k2 _ hm).2 rfl
    · cases a2 _ hm
    · cases shearLines_only _ _ hm
  · rw [mem, ← fs1, a3 rfl]
    constructor
    · rintro (hm | hm | hm)
      · exact absurd rfl (k2 _ hm).1
      · exact hm
      · cases shearLines_only _ _ hm
    · exact fun hm => Or.inr (Or.inl hm)
  · rw [mem, ← del]
    constructor
    · rintro (hm | hm | hm)
      · exact hm
      · cases a2 _ hm
      · cases shearLines_only _ _ hm
    · exact Or.inl
  · rw [← fs2]
    constructor
    · intro hm
      by_contra hx
      exact ((r3 (by simpa using hx)).1 _ hm).2.1 rfl
    · exact fun hx => (r4 hr hx).1
  · by_cases hx : w2.fs.exists? (d ++ ["y_value.npy"]) = true
    · exact (r4 hr hx).2
    · rw [(r3 (by simpa using hx)).2, fs2]
      unfold cleaned
      split_ifs with ht
      · exact rmtree_gone _ _
      · simpa using ht

/-! ## What is shown -/

/-- **C131 (what is shown).** With a logger of level `DEBUG` or below everything that is said is shown; with one
up to `INFO` all but the debug messages, and with a higher one nothing. -/
theorem C131_shown (ls : List (Line K)) (w w' : Site K) (h : Said ls w w') :
    (w.level ≤ 10 → w'.shown = w.shown ++ ls) ∧
    (10 < w.level → w.level ≤ 20 → w'.shown = w.shown ++ ls.filter fun l => match l with
      | .debug _ => false
      | .info _ => true) ∧
    (20 < w.level → w'.shown = w.shown) := by
  have key : w'.shown = w.shown ++ ls.filter fun l => decide (w.level ≤ l.level) := by
    unfold Site.shown
    rw [h.1, List.filter_append, List.map_append, List.filter_map, List.map_map]
    congr 1
    exact List.map_id _
  rw [key]
  have hd : ∀ m, (Line.debug m : Line K).level = 10 := fun _ => rfl
  have hi : ∀ m, (Line.info m : Line K).level = 20 := fun _ => rfl
  refine ⟨fun hl => ?_, fun h1 h2 => ?_, fun hl => ?_⟩
  · rw [List.filter_eq_self.2]
    intro l _
    rw [decide_eq_true_eq]
    cases l with
    | debug m => rw [hd]; exact hl
    | info m => rw [hi]; omega
  · congr 1
    refine List.filter_congr fun l _ => ?_
    cases l with
    | debug m => rw [hd]; exact decide_eq_false (by omega)
    | info m => rw [hi]; exact decide_eq_true h2
  · rw [List.filter_eq_nil_iff.2, List.append_nil]
    intro l _
    rw [decide_eq_true_eq]
    cases l with
    | debug m => rw [hd]; omega
    | info m => rw [hi]; omega

end

/-! ## Concrete cases -/

section

/-- `GridParameters(0, 2, 2, 0, 1, 2, 2, 2)`. -/
noncomputable def wideGrid : GridParams ℝ := gridOf (.fin 0) (.fin 2) 2 (.fin 0) (.fin 1) 2 (.fin 2) 2

theorem wideGrid_new : GridParams.new (K := ℝ) (.int 0) (.int 2) (.int 2) (.int 0) (.int 1) (.int 2)
    (.int 2) (.int 2) = .ok wideGrid := by
  rw [new_ok_iff]
  have h0 : IsNumber (K := ℝ) false (.int 0) (.fin 0) := Or.inl ⟨0, .int 0, by simp⟩
  have h1 : IsNumber (K := ℝ) false (.int 1) (.fin 1) := Or.inl ⟨1, .int 1, by simp⟩
  have h2 : IsNumber (K := ℝ) false (.int 2) (.fin 2) := Or.inl ⟨2, .int 2, by simp⟩
  have hc : Count (K := ℝ) (.int 2) 2 := ⟨by norm_num, .int 2⟩
  refine ⟨.fin 0, .fin 2, 2, .fin 0, .fin 1, 2, .fin 2, 2, ⟨h0, h2, ?_, hc⟩, ⟨h0, h1, ?_, hc⟩,
    ⟨h2, ?_, hc⟩, rfl⟩
  · rw [lessEq_iff]; simp
  · rw [lessEq_iff]; simp
  · rw [less_iff]; simp

theorem wideGrid_says (y x : ℕ) (hy : y < 2) (hx : x < 2) :
    cellSays (Shallot.bare wideGrid (.int 100) false) y x =
      if y = 0 ∧ x = 1 then [] else [.debug .originFy] := by
  have hdx : wideGrid.dx.data = [.fin 0, .fin 2] := two_points 0 2 (by norm_num)
  have hdy : wideGrid.dy.data = [.fin 0, .fin 1] := two_points 0 1 one_pos
  have hmax : npMax ([.fin 0, .fin 2] : List (XF ℝ)) = .fin 2 := by simp [npMax, XF.isNan]
  have hsl : wideGrid.sliceShape = (2, 2) := by
    unfold wideGrid gridOf GridParams.sliceShape
    simp [linspace_length]
  have key := (C131_cells_partial (Shallot.bare wideGrid (.int 100) false) y x).2 2 (by norm_num)
    (by show npMax wideGrid.dx.data = _; rw [hdx, hmax]) (by show (1 : ℤ) ≤ 100; norm_num)
    (by show wideGrid.dy.data.count _ = 1; rw [hdy]; simp [List.count_cons])
  rw [key]
  have hs : (Shallot.bare wideGrid (.int 100) false).shear.at3 y x 0 =
      Geometry.shear (wideGrid.dx.data.getD x .nan) (wideGrid.dy.data.getD y .nan) :=
    at3_cubeOf _ _ _ _ (show y < wideGrid.sliceShape.1 by rw [hsl]; exact hy)
      (show x < wideGrid.sliceShape.2 by rw [hsl]; exact hx) one_pos
  rw [hs, hdx, hdy]
  have c : ∀ z, z < 2 → z = 0 ∨ z = 1 := by omega
  rcases c y hy with rfl | rfl <;> rcases c x hx with rfl | rfl <;>
    simp [Geometry.shear, XF.eqb, XF.neg, XF.div, XF.isNan]

/-- **C131 is false of the code** The message `origin corrected` of `_determine_fy` is said for a cell that is
not in the row `dy = 0`, where nothing is corrected. -/
theorem C131_false : ∃ (s : Shallot ℝ) (y x : ℕ), s.params.dy.data[y]? = some (.fin 1) ∧
    .debug .originFy ∈ cellSays s y x := by
  refine ⟨Shallot.bare wideGrid (.int 100) false, 1, 1, ?_, ?_⟩
  · have hdy : wideGrid.dy.data = [.fin 0, .fin 1] := two_points 0 1 one_pos
    show wideGrid.dy.data[1]? = _
    rw [hdy]
    rfl
  · rw [wideGrid_says 1 1 (by norm_num) (by norm_num)]
    simp

/-- The shear of this grid has its origin. -/
example : Line.debug .originShear ∈ Site.shearLines wideGrid := by
  have hdx : wideGrid.dx.data = [.fin 0, .fin 2] := two_points 0 2 (by norm_num)
  have hdy : wideGrid.dy.data = [.fin 0, .fin 1] := two_points 0 1 one_pos
  refine (C131_shear wideGrid ?_ ?_).1.2 ⟨?_, ?_⟩
  · rw [hdx]; simp
  · rw [hdy]; simp
  · rw [hdx]; simp
  · rw [hdy]; simp

/-- **C131, a constructor that returns** The grid of `load` is built with a logger that shows everything, in
a place where a temporary directory was left: that directory is deleted, and this is shown. -/
example (fs : FS ℝ) (hfs : fs.exists? tempDir = true) (s : Shallot ℝ) : ∃ w' : Site ℝ,
    Site.new (.int 100) (.bool false) (.bool false) throwAway ⟨s, fs, 10, []⟩ = (.ok (), w') ∧
    .debug .deleted ∈ w'.shown ∧ .debug .originShear ∈ w'.shown ∧ .debug .notExtended ∉ w'.shown := by
  obtain ⟨t, d, h1, -⟩ := throwAway_grid
  have h2 := (newIn_plain _ _ _ fs).1 t _ h1
  rcases hn : Site.new (.int 100) (.bool false) (.bool false) throwAway ⟨s, fs, 10, []⟩ with ⟨r, w'⟩
  have f1 := (C131_new_files _ _ _ _ _ _ _ hn).1
  rw [h2] at f1
  have hr : r = .ok () := by
    cases r with
    | error e => cases congrArg Prod.fst f1
    | ok u => rfl
  subst hr
  obtain ⟨ls, k1, k2, k3, -⟩ := C131_new_says _ _ _ _ _ _ _ hn
  obtain ⟨n, keep, saving, -, -, b3, b4⟩ := k3 rfl
  have hsh : w'.shown = ls := by
    unfold Site.shown
    rw [k1.1]
    simp only [List.nil_append]
    rw [List.filter_eq_self.2, List.map_map]
    · exact List.map_id _
    · intro e he
      obtain ⟨l, -, rfl⟩ := List.mem_map.1 he
      cases l <;> simp [Line.level]
  have hdx : throwAway.dx.data = [.fin 0, .fin 1] := two_points 0 1 one_pos
  have hor : Line.debug .originShear ∈ Site.shearLines throwAway := by
    refine (C131_shear throwAway ?_ ?_).1.2 ⟨?_, ?_⟩
    · rw [hdx]; simp
    · exact (congrArg List.Nodup hdx).mpr (by simp)
    · rw [hdx]; simp
    · exact (congrArg (XF.fin 0 ∈ ·) hdx).mpr (by simp)
  refine ⟨w', rfl, ?_, ?_, ?_⟩
  · rw [hsh, b4]
    simp [hfs]
  · rw [hsh, b4]
    simp [hor]
  · rw [hsh, b4]
    have he : throwAway.extendable = true := by
      have hl : linspace (.fin 0) (.fin 1) 2 = [XF.fin (0 : ℝ), .fin 1] := two_points 0 1 one_pos
      simp [throwAway, gridOf, hl, XF.eqb]
    rw [he]
    have n1 : ∀ g : GridParams ℝ, Line.debug .notExtended ∉ Site.shearLines g := fun g hm => by
      cases shearLines_only _ _ hm
    simp only [List.mem_append, n1, if_true, not_or]
    refine ⟨⟨⟨⟨⟨not_false, ?_⟩, ?_⟩, ?_⟩, not_false⟩, by simp⟩
    · split_ifs <;> simp
    · intro hm
      obtain ⟨y, -, hy⟩ := List.mem_flatMap.1 hm
      unfold rowSays at hy
      rcases List.mem_cons.1 hy with hy | hy
      · cases hy
      · obtain ⟨x, -, hx⟩ := List.mem_flatMap.1 hy
        cases cellSays_only _ _ _ _ hx
    · split_ifs <;> simp

end
end Beyonce
