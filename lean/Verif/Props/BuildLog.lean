import Verif.BuildLog
import Verif.Props.ShallotLog
import Verif.FilesLemmas

/-!
# Property C131: what a grid tells about its construction

`Site.new` and `Site.load` execute `__init__` and `load` statement by statement, with files and all messages.
-/

set_option linter.unusedSectionVars false

namespace Beyonce
open Spec

section
variable {K α β : Type}

theorem meth_bind_assoc {S γ : Type} (m : Meth S α) (f : α → Meth S β) (g : β → Meth S γ) :
    m >>= f >>= g = m >>= fun a => f a >>= g := by
  funext s
  simp only [Meth.bind_apply]
  rcases m s with ⟨e | a, s'⟩ <;> rfl

/-! ## Methods that touch no file -/

/-- The method ends as the one of the grid alone, and touches neither the files nor the logger. -/
def Heeds (m : Meth (Site K) α) (p : Meth (Shallot K) α) : Prop :=
  ∀ w, (m w).1 = (p w.grid).1 ∧ (m w).2.grid = (p w.grid).2 ∧ (m w).2.fs = w.fs ∧ (m w).2.level = w.level

theorem Heeds.onGrid (p : Meth (Shallot K) α) : Heeds (Site.onGrid p) p := fun _ => ⟨rfl, rfl, rfl, rfl⟩

theorem Heeds.pure (a : α) : Heeds (pure a : Meth (Site K) α) (pure a) := fun _ => ⟨rfl, rfl, rfl, rfl⟩

theorem Heeds.throw (e : Err) : Heeds (Meth.throw e : Meth (Site K) α) (Meth.throw e) :=
  fun _ => ⟨rfl, rfl, rfl, rfl⟩

theorem Heeds.lift (e : Except Err α) : Heeds (Meth.lift e : Meth (Site K) α) (Meth.lift e) :=
  fun _ => ⟨rfl, rfl, rfl, rfl⟩

theorem Heeds.bind {m : Meth (Site K) α} {p : Meth (Shallot K) α} {f : α → Meth (Site K) β}
    {q : α → Meth (Shallot K) β} (h : Heeds m p) (hf : ∀ a, Heeds (f a) (q a)) :
    Heeds (m >>= f) (p >>= q) := by
  intro w
  have h1 := h w
  rcases hm : m w with ⟨e | a, w'⟩ <;> rcases hp : p w.grid with ⟨e' | a', s'⟩ <;>
    simp only [hm, hp] at h1
  · rw [bind_err _ _ _ _ _ hm, bind_err _ _ _ _ _ hp]
    simpa using h1
  · simp at h1
  · simp at h1
  · obtain ⟨h1, rfl, h3, h4⟩ := h1
    injection h1 with h1
    subst h1
    rw [bind_ok _ _ _ _ _ hm, bind_ok _ _ _ _ _ hp]
    obtain ⟨a1, a2, a3, a4⟩ := hf a w'
    exact ⟨a1, a2, a3.trans h3, a4.trans h4⟩

theorem Heeds.say_bind {l : Line K} {f : Unit → Meth (Site K) β} {q : Meth (Shallot K) β}
    (hf : Heeds (f ()) q) : Heeds (Site.say l >>= f) q :=
  fun w => hf { w with log := w.log ++ [(w.level, l)] }

theorem Heeds.sayAll_bind {l : List (Line K)} {f : Unit → Meth (Site K) β} {q : Meth (Shallot K) β}
    (hf : Heeds (f ()) q) : Heeds (Site.sayAll l >>= f) q :=
  fun w => hf { w with log := w.log ++ l.map fun l => (w.level, l) }

theorem Heeds.get {f : Site K → Meth (Site K) β} {q : Shallot K → Meth (Shallot K) β}
    (hf : ∀ w, Heeds (f w) (q w.grid)) : Heeds (Meth.get >>= f) (Meth.get >>= q) :=
  fun w => hf w w

theorem Heeds.get_left {f : Site K → Meth (Site K) β} {q : Meth (Shallot K) β}
    (hf : ∀ w, Heeds (f w) q) : Heeds (Meth.get >>= f) q :=
  fun w => hf w w

end

section
variable {K : Type} [Field K] [LinearOrder K] [IsStrictOrderedRing K] [RealFns K] [FloorRing K]

theorem heeds_buildCell (y x : ℕ) : Heeds (Site.buildCell (K := K) y x) (Shallot.buildCell y x) := by
  intro w
  unfold Site.buildCell
  rw [Meth.get_bind]
  split_ifs with h
  · have : Shallot.buildCell y x w.grid = (.ok (), w.grid) := by
      unfold Shallot.buildCell
      rw [Meth.get_bind, if_pos h]
      rfl
    rw [this]
    exact ⟨rfl, rfl, rfl, rfl⟩
  · exact Heeds.sayAll_bind (Heeds.onGrid _) w

theorem heeds_buildRow (y : ℕ) : ∀ n x : ℕ, Heeds (Site.buildRow (K := K) y n x) (Shallot.buildRow y n x)
  | 0, _ => Heeds.pure ()
  | n + 1, x => Heeds.bind (heeds_buildCell y x) fun _ => heeds_buildRow y n (x + 1)

theorem heeds_helpers : Heeds (Site.helpers (K := K)) (Meth.modify Shallot.helpers) :=
  Heeds.get_left fun _ => Heeds.sayAll_bind (Heeds.onGrid _)

theorem heeds_diagnose : Heeds (Site.diagnose (K := K)) Shallot.diagnose := by
  intro w
  unfold Site.diagnose
  rcases h : Shallot.diagnose w.grid with ⟨e | a, s⟩
  · have : Site.onGrid Shallot.diagnose w = (.error e, { w with grid := s }) := by
      unfold Site.onGrid
      rw [h]
    rw [bind_err _ _ _ _ _ this]
    exact ⟨rfl, rfl, rfl, rfl⟩
  · have : Site.onGrid Shallot.diagnose w = (.ok a, { w with grid := s }) := by
      unfold Site.onGrid
      rw [h]
    rw [bind_ok _ _ _ _ _ this]
    exact ⟨rfl, rfl, rfl, rfl⟩

theorem heeds_extendGrid : Heeds (Site.extendGrid (K := K)) Shallot.extendGrid := by
  intro w
  unfold Site.extendGrid Shallot.extendGrid
  rcases h : GridParams.extendGrid w.grid.params with ⟨e | a, g⟩
  · cases e <;> exact ⟨rfl, rfl, rfl, rfl⟩
  · exact (Heeds.bind (Heeds.onGrid _) fun _ => Heeds.bind heeds_helpers fun _ =>
      Heeds.bind (Heeds.onGrid _) fun _ => Heeds.onGrid _) w

theorem heeds_finish : Heeds (Site.finish (K := K)) (do Shallot.extendGrid; Shallot.diagnose) :=
  Heeds.bind heeds_extendGrid fun _ => heeds_diagnose

/-! ## The files -/

/-- Rows, and the contrast parameters after them. -/
theorem rows_files (saving : Bool) (num : ℕ) : ∀ (n y : ℕ) (w : Site K) (r : Except Err Unit) (w' : Site K),
    (Site.buildRows saving num n y >>= fun _ => Site.onGrid Shallot.recolorAll) w = (r, w') →
    w.fs.run (Shallot.rowsTrace saving n y w.grid) = (r, w'.fs) ∧ w'.level = w.level ∧
      (r = .ok () →
        (Shallot.buildRows n y >>= fun _ => Shallot.recolorAll) w.grid = (.ok (), w'.grid))
  | 0, y, w, r, w', h => by
    have h' : Site.onGrid Shallot.recolorAll w = (r, w') := h
    unfold Site.onGrid at h'
    rcases hr : Shallot.recolorAll w.grid with ⟨e | a, s⟩
    · rw [hr] at h'
      injection h' with h1 h2
      subst h1 h2
      unfold Shallot.rowsTrace
      rw [hr]
      exact ⟨rfl, rfl, fun h => by cases h⟩
    · rw [hr] at h'
      injection h' with h1 h2
      subst h1 h2
      unfold Shallot.rowsTrace
      rw [hr]
      exact ⟨rfl, rfl, fun _ => hr⟩
  | n + 1, y, w, r, w', h => by
    obtain ⟨b1, b2, b3, b4⟩ := heeds_buildRow y w.grid.params.sliceShape.2 0
      { w with log := w.log ++ [(w.level, .info (.building (y + 1) num))] }
    dsimp only at b1 b2 b3 b4
    have unf : (Site.buildRows saving num (n + 1) y >>= fun _ => Site.onGrid Shallot.recolorAll) w =
        (Site.buildRow y w.grid.params.sliceShape.2 0 >>= fun _ => Site.saveRow saving y >>= fun _ =>
          (Site.buildRows saving num n (y + 1) >>= fun _ => Site.onGrid Shallot.recolorAll))
          { w with log := w.log ++ [(w.level, .info (.building (y + 1) num))] } := by
      simp only [Site.buildRows, meth_bind_assoc]
      rfl
    rw [unf] at h
    rcases hb : Site.buildRow y w.grid.params.sliceShape.2 0
      { w with log := w.log ++ [(w.level, .info (.building (y + 1) num))] } with ⟨e | a, w1⟩
    · rw [bind_err _ _ _ _ _ hb] at h
      injection h with h1 h2
      subst h1 h2
      rw [hb] at b1 b2 b3 b4
      have hg : Shallot.buildRow y w.grid.params.sliceShape.2 0 w.grid = (.error e, w1.grid) :=
        Prod.ext b1.symm b2.symm
      unfold Shallot.rowsTrace
      rw [hg]
      refine ⟨?_, b4, fun h => by cases h⟩
      rw [b3]
      rfl
    · rw [bind_ok _ _ _ _ _ hb] at h
      rw [hb] at b1 b2 b3 b4
      have hg : Shallot.buildRow y w.grid.params.sliceShape.2 0 w.grid = (.ok a, w1.grid) :=
        Prod.ext b1.symm b2.symm
      unfold Shallot.rowsTrace
      rw [hg]
      dsimp only at b3 b4 ⊢
      have key : ∃ w2 : Site K, w2.grid = w1.grid ∧ w2.level = w1.level ∧
          ((Site.saveRow saving y w1 = (.ok (), w2) ∧
            w.fs.run (if saving then w1.grid.saveSteps .temp (.int y) else []) = (.ok (), w2.fs)) ∨
          ∃ e, Site.saveRow saving y w1 = (.error e, w2) ∧
            w.fs.run (if saving then w1.grid.saveSteps .temp (.int y) else []) = (.error e, w2.fs)) := by
        unfold Site.saveRow
        rw [Meth.get_bind]
        cases saving with
        | false => exact ⟨w1, rfl, rfl, Or.inl ⟨rfl, by rw [b3]; rfl⟩⟩
        | true =>
          rw [if_pos rfl, if_pos rfl, ← b3]
          unfold Site.files
          rcases hf : w1.fs.run (w1.grid.saveSteps .temp (.int y)) with ⟨e | a, fs'⟩
          · exact ⟨{ w1 with fs := fs' }, rfl, rfl, Or.inr ⟨e, rfl, rfl⟩⟩
          · exact ⟨{ w1 with fs := fs' }, rfl, rfl, Or.inl ⟨rfl, rfl⟩⟩
      obtain ⟨w2, g2, l2, ⟨hs, hf⟩ | ⟨e, hs, hf⟩⟩ := key
      · rw [bind_ok _ _ _ _ _ hs] at h
        obtain ⟨i1, i2, i3⟩ := rows_files saving num n (y + 1) w2 r w' h
        rw [FS.run_append, hf]
        dsimp only
        rw [g2] at i1 i3
        refine ⟨i1, by rw [i2, l2, b4], fun hr => ?_⟩
        have := i3 hr
        rw [← this]
        change ((Meth.get >>= fun self : Shallot K => Shallot.buildRow y self.params.sliceShape.2 0 >>= fun _ =>
          Shallot.buildRows n (y + 1)) >>= fun _ => Shallot.recolorAll) w.grid = _
        rw [meth_bind_assoc, Meth.get_bind, meth_bind_assoc, bind_ok _ _ _ _ _ hg]
      · rw [bind_err _ _ _ _ _ hs] at h
        injection h with h1 h2
        subst h1 h2
        rw [FS.run_append, hf]
        exact ⟨rfl, by rw [l2, b4], fun h => by cases h⟩

/-- The method does nothing but these file operations, apart from messages. -/
def Acts (m : Meth (Site K) Unit) (ss : List (Step K)) : Prop :=
  ∀ w, (m w).1 = (w.fs.run ss).1 ∧ (m w).2.fs = (w.fs.run ss).2 ∧ (m w).2.grid = w.grid ∧
    (m w).2.level = w.level

theorem run_rmtree (fs : FS K) (d : Path) (ss : List (Step K)) :
    fs.run (.rmtreeIfExists d :: ss) = (if fs.exists? d then fs.rmtree d else fs).run ss := rfl

theorem acts_createTemp : Acts (K := K) Site.createTemp [.rmtreeIfExists tempDir, .mkdir tempDir] := by
  intro w
  unfold Site.createTemp
  rw [Meth.get_bind, run_rmtree]
  by_cases h : w.fs.exists? tempDir
  · rw [if_pos h, if_pos h]
    have : Site.files [.rmtreeIfExists tempDir] w = (.ok (), { w with fs := w.fs.rmtree tempDir }) := by
      unfold Site.files
      rw [run_rmtree, if_pos h]
      rfl
    rw [bind_ok _ _ _ _ _ this]
    exact ⟨rfl, rfl, rfl, rfl⟩
  · rw [if_neg h, if_neg h]
    exact ⟨rfl, rfl, rfl, rfl⟩

theorem acts_deleteTemp : Acts (K := K) Site.deleteTemp [.rmtreeIfExists tempDir] := by
  intro w
  unfold Site.deleteTemp
  rw [Meth.get_bind, run_rmtree]
  by_cases h : w.fs.exists? tempDir
  · rw [if_pos h, if_pos h]
    have : Site.files [.rmtreeIfExists tempDir] w = (.ok (), { w with fs := w.fs.rmtree tempDir }) := by
      unfold Site.files
      rw [run_rmtree, if_pos h]
      rfl
    rw [bind_ok _ _ _ _ _ this]
    exact ⟨rfl, rfl, rfl, rfl⟩
  · rw [if_neg h, if_neg h]
    exact ⟨rfl, rfl, rfl, rfl⟩

/-- What is done after the grid properties are there. -/
def afterInit (saving : Bool) (y : ℕ) : Meth (Site K) Unit :=
  (if saving then Site.createTemp else pure ()) >>= fun _ => do
    let w ← Meth.get
    Site.buildRows saving w.grid.params.sliceShape.1 (w.grid.params.sliceShape.1 - y) y
    Site.onGrid Shallot.recolorAll
    Site.deleteTemp

theorem afterInit_files (saving : Bool) (y : ℕ) (w : Site K) (r : Except Err Unit) (w' : Site K)
    (h : afterInit saving y w = (r, w')) :
    w.fs.run ((if saving then [.rmtreeIfExists tempDir, .mkdir tempDir] else []) ++
      (Shallot.rowsTrace saving (w.grid.params.sliceShape.1 - y) y w.grid ++
        [.rmtreeIfExists tempDir])) = (r, w'.fs) ∧ w'.level = w.level ∧
    (r = .ok () → (Shallot.buildRows (w.grid.params.sliceShape.1 - y) y >>= fun _ => Shallot.recolorAll) w.grid =
      (.ok (), w'.grid)) := by
  have key : Acts (K := K) (if saving then Site.createTemp else pure ())
      (if saving then [.rmtreeIfExists tempDir, .mkdir tempDir] else []) := by
    cases saving
    · exact fun w => ⟨rfl, rfl, rfl, rfl⟩
    · exact acts_createTemp
  obtain ⟨c1, c2, c3, c4⟩ := key w
  unfold afterInit at h
  rcases hc : (if saving then Site.createTemp else pure () : Meth (Site K) Unit) w with ⟨e | a, w1⟩
  · rw [bind_err _ _ _ _ _ hc] at h
    injection h with h1 h2
    subst h1 h2
    rw [hc] at c1 c2 c3 c4
    rw [FS.run_append, show w.fs.run (if saving then [.rmtreeIfExists tempDir, .mkdir tempDir] else []) =
      (.error e, w1.fs) from Prod.ext c1.symm c2.symm]
    exact ⟨rfl, c4, fun h => by cases h⟩
  · rw [bind_ok _ _ _ _ _ hc, Meth.get_bind, ← meth_bind_assoc] at h
    rw [hc] at c1 c2 c3 c4
    dsimp only at c1 c2 c3 c4
    rw [FS.run_append, show w.fs.run (if saving then [.rmtreeIfExists tempDir, .mkdir tempDir] else []) =
      (.ok a, w1.fs) from Prod.ext c1.symm c2.symm]
    dsimp only
    rw [c3] at h
    rcases hr : (Site.buildRows saving w.grid.params.sliceShape.1 (w.grid.params.sliceShape.1 - y) y >>=
      fun _ => Site.onGrid Shallot.recolorAll) w1 with ⟨e | b, w2⟩
    · rw [bind_err _ _ _ _ _ hr] at h
      injection h with h1 h2
      subst h1 h2
      obtain ⟨i1, i2, -⟩ := rows_files _ _ _ _ _ _ _ hr
      rw [c3] at i1
      rw [FS.run_append, i1]
      exact ⟨rfl, i2.trans c4, fun h => by cases h⟩
    · rw [bind_ok _ _ _ _ _ hr] at h
      obtain ⟨i1, i2, i3⟩ := rows_files _ _ _ _ _ _ _ hr
      obtain ⟨d1, d2, d3, d4⟩ := acts_deleteTemp w2
      rw [h] at d1 d2 d3 d4
      rw [c3] at i1 i3
      rw [FS.run_append, i1]
      refine ⟨Prod.ext d1.symm d2.symm, d4.trans (i2.trans c4), fun _ => ?_⟩
      rw [i3 rfl, ← d3]

/-- **C131 (the files of a build).** A build executed statement by statement ends as the one that carries
out the file operations and computes the grid beside them, with the same grid or exception and the same
files; it does not change the level of the logger. -/
theorem C131_build_files (saving : Bool) (y : ℕ) (w : Site K) (r : Except Err Unit) (w' : Site K)
    (h : Site.build saving y w = (r, w')) :
    Shallot.buildIn saving y w.grid w.fs = (r.map fun _ => w'.grid, w'.fs) ∧ w'.level = w.level := by
  have hi : Heeds (K := K) (if y = 0 then Site.onGrid Shallot.initialise else pure ())
      (if y = 0 then Shallot.initialise else pure ()) := by
    split_ifs
    · exact Heeds.onGrid _
    · exact Heeds.pure _
  have unf : Site.build (K := K) saving y =
      ((if y = 0 then Site.onGrid Shallot.initialise else pure ()) >>= fun _ => afterInit saving y) := by
    unfold Site.build afterInit
    cases saving <;> by_cases hy : y = 0 <;> simp only [hy, if_true, if_false, Bool.false_eq_true, reduceIte] <;>
      rfl
  rw [unf] at h
  obtain ⟨a1, a2, a3, a4⟩ := hi w
  unfold Shallot.buildIn Shallot.trace
  rcases hw : (if y = 0 then Site.onGrid Shallot.initialise else pure () : Meth (Site K) Unit) w with ⟨e | a, w1⟩
  · rw [bind_err _ _ _ _ _ hw] at h
    injection h with h1 h2
    subst h1 h2
    rw [hw] at a1 a2 a3 a4
    have hq : (if y = 0 then Shallot.initialise w.grid else (.ok (), w.grid)) = (.error e, w1.grid) := by
      split_ifs at a1 a2 ⊢ <;> exact Prod.ext a1.symm a2.symm
    rw [hq]
    refine ⟨?_, a4⟩
    rw [a3]
    rfl
  · rw [bind_ok _ _ _ _ _ hw] at h
    rw [hw] at a1 a2 a3 a4
    have hq : (if y = 0 then Shallot.initialise w.grid else (.ok (), w.grid)) = (.ok a, w1.grid) := by
      split_ifs at a1 a2 ⊢ <;> exact Prod.ext a1.symm a2.symm
    have hq' : (if y = 0 then Shallot.initialise else pure () : Meth (Shallot K) Unit) w.grid =
        (.ok a, w1.grid) := Prod.ext a1.symm a2.symm
    rw [hq]
    dsimp only at a3 a4 ⊢
    obtain ⟨f1, f2, f3⟩ := afterInit_files saving y w1 r w' h
    rw [a3] at f1
    rw [f1]
    refine ⟨?_, f2.trans a4⟩
    cases r with
    | error e => rfl
    | ok u =>
      have hb : Shallot.build y w.grid = (.ok (), w'.grid) := by
        have : Shallot.build (K := K) y = ((if y = 0 then Shallot.initialise else pure ()) >>= fun _ =>
            Meth.get >>= fun self => Shallot.buildRows (self.params.sliceShape.1 - y) y >>= fun _ =>
              Shallot.recolorAll) := by
          unfold Shallot.build
          by_cases hy : y = 0 <;> simp only [hy, if_true, if_false] <;> rfl
        rw [this, bind_ok _ _ _ _ _ hq', Meth.get_bind]
        exact f3 rfl
      dsimp only
      rw [hb]
      rfl

theorem finish_files (w : Site K) (r : Except Err Unit) (w' : Site K) (h : Site.finish w = (r, w')) :
    Shallot.finish w.grid = (r.map fun _ => w'.grid) ∧ w'.fs = w.fs ∧ w'.level = w.level := by
  obtain ⟨a1, a2, a3, a4⟩ := heeds_finish w
  rw [h] at a1 a2 a3 a4
  dsimp only at a1 a2 a3 a4
  unfold Shallot.finish
  rw [show (do Shallot.extendGrid; Shallot.diagnose : Meth (Shallot K) Unit) w.grid = (r, w'.grid) from
    Prod.ext a1.symm a2.symm]
  refine ⟨?_, a3, a4⟩
  cases r <;> rfl

theorem helpers_run (w : Site K) : ∃ l, Site.helpers w =
    (.ok (), { w with grid := Shallot.helpers w.grid, log := w.log ++ l }) := ⟨_, rfl⟩

/-- **C131 (the files of the constructor).** Executed statement by statement, `__init__` ends with the grid
or exception of `Shallot.newIn` and the same files. -/
theorem C131_new_files (a b c : PyVal K) (g : GridParams K) (w : Site K) (r : Except Err Unit) (w' : Site K)
    (h : Site.new a b c g w = (r, w')) :
    Shallot.newIn a b c g w.fs = (r.map fun _ => w'.grid, w'.fs) ∧ w'.level = w.level := by
  unfold Site.new at h
  unfold Shallot.newIn
  cases ha : number a (.bool true) (.int 1) with
  | error e =>
    rw [ha, Meth.lift_error_bind] at h
    injection h with h1 h2
    subst h1 h2
    exact ⟨rfl, rfl⟩
  | ok n =>
    rw [ha, Meth.lift_ok_bind] at h
    cases hb : boolean b with
    | error e =>
      rw [hb, Meth.lift_error_bind] at h
      injection h with h1 h2
      subst h1 h2
      exact ⟨rfl, rfl⟩
    | ok keep =>
      rw [hb, Meth.lift_ok_bind, Meth.modify_bind] at h
      obtain ⟨l, hl⟩ := helpers_run { w with grid := Shallot.bare g n keep }
      rw [bind_ok _ _ _ _ _ hl] at h
      cases hc : boolean c with
      | error e =>
        rw [hc, Meth.lift_error_bind] at h
        injection h with h1 h2
        subst h1 h2
        exact ⟨rfl, rfl⟩
      | ok saving =>
        rw [hc, Meth.lift_ok_bind] at h
        dsimp only at h ⊢
        rw [show Shallot.helpers (Shallot.bare g n keep) = Shallot.bare g n keep from rfl] at h
        rcases hb : Site.build saving 0 { w with grid := Shallot.bare g n keep, log := w.log ++ l }
          with ⟨e | u, w1⟩
        · rw [bind_err _ _ _ _ _ hb] at h
          injection h with h1 h2
          subst h1 h2
          obtain ⟨f1, f2⟩ := C131_build_files _ _ _ _ _ hb
          dsimp only at f1 f2
          rw [f1]
          exact ⟨rfl, f2⟩
        · rw [bind_ok _ _ _ _ _ hb] at h
          obtain ⟨f1, f2⟩ := C131_build_files _ _ _ _ _ hb
          dsimp only at f1 f2
          rw [f1]
          obtain ⟨g1, g2, g3⟩ := finish_files _ _ _ h
          dsimp only [Except.map]
          rw [g1, g2]
          exact ⟨rfl, g3.trans f2⟩

theorem loadAttributes_files (d : Path) (w : Site K) (r : Except Err Unit) (w' : Site K)
    (h : Site.loadAttributes d w = (r, w')) :
    Shallot.loadAttributes w.fs d w.grid = (r.map fun _ => w'.grid) ∧ w'.fs = w.fs ∧ w'.level = w.level := by
  have lifts : ∀ {α : Type} (e : Except Err α) (f : α → Meth (Site K) Unit) (w : Site K),
      (∃ x, e = .error x ∧ (Meth.lift e >>= f) w = (.error x, w)) ∨
      ∃ a, e = .ok a ∧ (Meth.lift e >>= f) w = f a w := by
    intro α e f w
    cases e with
    | error x => exact Or.inl ⟨x, rfl, rfl⟩
    | ok a => exact Or.inr ⟨a, rfl, rfl⟩
  have puts : ∀ (f : Shallot K → Shallot K) (k : Unit → Meth (Site K) Unit) (w : Site K),
      (Site.onGrid (Meth.modify f) >>= k) w = k () { w with grid := f w.grid } := fun _ _ _ => rfl
  unfold Site.loadAttributes at h
  unfold Shallot.loadAttributes
  rcases lifts (loadScalar w.fs (d ++ ["num_fxfy.npy"])) _ _ with ⟨x, e, q⟩ | ⟨n, e, q⟩ <;>
    rw [q] at h <;> rw [e]
  · injection h with h1 h2; subst h1 h2; exact ⟨rfl, rfl, rfl⟩
  rw [puts] at h
  rcases lifts (GridParams.load w.fs d) _ _ with ⟨x, e, q⟩ | ⟨g, e, q⟩ <;> rw [q] at h <;> rw [e]
  · injection h with h1 h2; subst h1 h2; exact ⟨rfl, rfl, rfl⟩
  rw [puts] at h
  rcases lifts (GProp.load w.fs d .diskRadius .eclipseDuration) _ _ with ⟨x, e, q⟩ | ⟨a, e, q⟩ <;>
    rw [q] at h <;> rw [e]
  · injection h with h1 h2; subst h1 h2; exact ⟨rfl, rfl, rfl⟩
  rw [puts] at h
  rcases lifts (GProp.load w.fs d .inclination .degree) _ _ with ⟨x, e, q⟩ | ⟨b, e, q⟩ <;>
    rw [q] at h <;> rw [e]
  · injection h with h1 h2; subst h1 h2; exact ⟨rfl, rfl, rfl⟩
  rw [puts] at h
  rcases lifts (GProp.load w.fs d .tilt .degree) _ _ with ⟨x, e, q⟩ | ⟨c, e, q⟩ <;> rw [q] at h <;> rw [e]
  · injection h with h1 h2; subst h1 h2; exact ⟨rfl, rfl, rfl⟩
  rw [puts] at h
  rcases lifts (GProp.load w.fs d .fxMap .none) _ _ with ⟨x, e, q⟩ | ⟨fx, e, q⟩ <;> rw [q] at h <;> rw [e]
  · injection h with h1 h2; subst h1 h2; exact ⟨rfl, rfl, rfl⟩
  rw [puts] at h
  rcases lifts (GProp.load w.fs d .fyMap .none) _ _ with ⟨x, e, q⟩ | ⟨fy, e, q⟩ <;> rw [q] at h <;> rw [e]
  · injection h with h1 h2; subst h1 h2; exact ⟨rfl, rfl, rfl⟩
  rw [puts] at h
  simp only [bind, Except.bind]
  by_cases hx : (w.fs.listdir d).all hasExtension = true
  · rw [if_pos hx]
    cases hd : Diagnostics.load w.fs d with
    | ok diag =>
      simp only [hd, hx, if_true] at h
      injection h with h1 h2
      subst h1 h2
      exact ⟨rfl, rfl, rfl⟩
    | error e =>
      have he : e = .loadError := by
        unfold Diagnostics.load at hd
        split at hd
        · cases hd
        · injection hd with hd; exact hd.symm
      subst he
      simp only [hd, hx, if_true] at h
      injection h with h1 h2
      subst h1 h2
      exact ⟨rfl, rfl, rfl⟩
  · rw [if_neg hx]
    cases hd : Diagnostics.load w.fs d with
    | ok diag =>
      simp only [hd, if_neg hx] at h
      injection h with h1 h2
      subst h1 h2
      exact ⟨rfl, rfl, rfl⟩
    | error e =>
      have he : e = .loadError := by
        unfold Diagnostics.load at hd
        split at hd
        · cases hd
        · injection hd with hd; exact hd.symm
      subst he
      simp only [hd, if_neg hx] at h
      injection h with h1 h2
      subst h1 h2
      exact ⟨rfl, rfl, rfl⟩

theorem resume_files (d : Path) (w : Site K) (r : Except Err Unit) (w' : Site K)
    (h : Site.resume d w = (r, w')) :
    Shallot.resume d w.grid w.fs = (r.map fun _ => w'.grid, w'.fs) ∧ w'.level = w.level := by
  unfold Site.resume at h
  rw [Meth.get_bind] at h
  unfold Shallot.resume
  by_cases hx : w.fs.exists? (d ++ ["y_value.npy"]) = true
  · rw [if_pos hx] at h ⊢
    cases hv : loadScalar w.fs (d ++ ["y_value.npy"]) with
    | error e =>
      rw [hv, Meth.lift_error_bind] at h
      injection h with h1 h2
      subst h1 h2
      exact ⟨rfl, rfl⟩
    | ok v =>
      rw [hv, Meth.lift_ok_bind] at h
      dsimp only
      cases hn : number v (.bool true) (.int 0) (.int (w.grid.params.dy.shape.headD 0 : ℕ)) with
      | error e =>
        rw [hn, Meth.lift_error_bind] at h
        injection h with h1 h2
        subst h1 h2
        exact ⟨rfl, rfl⟩
      | ok y =>
        rw [hn, Meth.lift_ok_bind] at h
        dsimp only
        rcases hb : Site.build true y.toInt.toNat w with ⟨e | u, w1⟩
        · rw [bind_err _ _ _ _ _ hb] at h
          injection h with h1 h2
          subst h1 h2
          obtain ⟨f1, f2⟩ := C131_build_files _ _ _ _ _ hb
          rw [f1]
          exact ⟨rfl, f2⟩
        · rw [bind_ok _ _ _ _ _ hb] at h
          obtain ⟨f1, f2⟩ := C131_build_files _ _ _ _ _ hb
          rw [f1]
          obtain ⟨g1, g2, g3⟩ := finish_files _ _ _ h
          dsimp only [Except.map]
          rw [g1, g2]
          exact ⟨rfl, g3.trans f2⟩
  · rw [if_neg hx] at h ⊢
    obtain ⟨g1, g2, g3⟩ := finish_files _ _ _ h
    rw [g1, g2]
    exact ⟨rfl, g3⟩

/-- **C131 (the files of `load`).** Executed statement by statement, `load` ends with the grid or exception
of `Shallot.load` and the same files. -/
theorem C131_load_files (d : Path) (level : ℕ) (w : Site K) (r : Except Err Unit) (w' : Site K)
    (h : Site.load d level w = (r, w')) :
    Shallot.load d w.fs = (r.map fun _ => w'.grid, w'.fs) := by
  unfold Site.load at h
  unfold Shallot.load
  cases hg : GridParams.new (K := K) (.int 0) (.int 1) (.int 2) (.int 0) (.int 1) (.int 2) (.int 2) (.int 2) with
  | error e =>
    rw [hg, Meth.lift_error_bind] at h
    injection h with h1 h2
    subst h1 h2
    rfl
  | ok g =>
    rw [hg, Meth.lift_ok_bind, Meth.modify_bind] at h
    dsimp only
    rcases hn : Site.new (.int 100) (.bool false) (.bool false) g { w with level := 50 } with ⟨e | u, w1⟩
    · rw [bind_err _ _ _ _ _ hn] at h
      injection h with h1 h2
      subst h1 h2
      obtain ⟨f1, -⟩ := C131_new_files _ _ _ _ _ _ _ hn
      dsimp only at f1
      rw [f1]
      rfl
    · rw [bind_ok _ _ _ _ _ hn] at h
      obtain ⟨f1, -⟩ := C131_new_files _ _ _ _ _ _ _ hn
      dsimp only at f1
      rw [f1]
      dsimp only [Except.map]
      rcases hl : Site.loadAttributes d w1 with ⟨e | u, w2⟩
      · rw [bind_err _ _ _ _ _ hl] at h
        injection h with h1 h2
        subst h1 h2
        obtain ⟨g1, g2, -⟩ := loadAttributes_files _ _ _ _ hl
        rw [g1, g2]
        rfl
      · rw [bind_ok _ _ _ _ _ hl] at h
        obtain ⟨g1, g2, -⟩ := loadAttributes_files _ _ _ _ hl
        rw [g1, ← g2]
        dsimp only [Except.map]
        obtain ⟨l, hh⟩ := helpers_run w2
        rw [bind_ok _ _ _ _ _ hh, Meth.modify_bind] at h
        exact (resume_files d _ _ _ h).1

end
end Beyonce
