import Verif.Props.SmallestDisk
import Verif.Props.Quadrants
import Verif.Props.GridDiagnostics

/-!
# What `_build_grid` puts into the cubes
-/

set_option linter.unusedSectionVars false

namespace Beyonce
open Spec

section
variable {K : Type} [Field K] [LinearOrder K] [IsStrictOrderedRing K] [RealFns K]

/-! ## Columns -/

/-- The cell at row `y` and column `x` of a grid. -/
def Spec.cellFor (g : GridParams K) (num y x : ℕ) : Shallot.Cell K :=
  ⟨g.dy.data.getD y .nan, Geometry.shear (g.dx.data.getD x .nan) (g.dy.data.getD y .nan),
    Geometry.circularRadius (g.dy.data.getD y .nan), npMax g.dx.data, npMax g.dy.data,
    g.rf.data.getLastD .nan, num⟩

/-- The column of a cell, if its shear is a number and the column can be made. -/
def Spec.columnFor (g : GridParams K) (num y x : ℕ) : Option (Shallot.Column K) :=
  if (cellFor g num y x).shear.isNan then none
  else match Shallot.column (cellFor g num y x) g.rf.data with
    | .ok c => some c
    | .error _ => none

/-- A cell that the build can do. -/
def Spec.Buildable (g : GridParams K) (num y x : ℕ) : Prop :=
  (cellFor g num y x).shear = .nan ∨
    ∃ col, Shallot.column (cellFor g num y x) g.rf.data = .ok col

/-- What belongs into element `(y, x, r)` of a cube. -/
def Spec.layer (g : GridParams K) (num : ℕ) (sel : Shallot.Column K → List (XF K)) (y x r : ℕ) :
    XF K :=
  match columnFor g num y x with
  | some c => (sel c).getD r .nan
  | none => .nan

/-- Shapes that belong together. -/
structure Spec.ShapedGrid (g : GridParams K) : Prop where
  grid : g.gridShape = (g.dy.data.length, g.dx.data.length, 2 * g.rf.data.length - 1)
  slice : g.sliceShape = (g.dy.data.length, g.dx.data.length)
  rfArray : g.rfArray.data.length = 2 * g.rf.data.length - 1
  rf : g.rf.data ≠ []

theorem horizontalLoop_length (c : Shallot.Cell K) : ∀ (n : ℕ) (fy r : List (XF K)) res,
    Shallot.horizontalLoop c n fy r = some res → fy.length = r.length →
    ∀ q, res = .ok q → q.1.length = q.2.length := by
  refine Shallot.horizontalLoop.partial_correctness c
    (fun n fy r res => fy.length = r.length → ∀ q, res = .ok q → q.1.length = q.2.length) ?_
  intro loop ih n fy r res h hl q hq
  simp only at h
  split_ifs at h
  · cases h; cases hq
  · exact ih _ _ _ _ h (by simp [Shallot.radii, hl]) q hq
  · cases h; cases hq
  · cases h; cases hq; simp [Shallot.radii, hl]

theorem verticalLoop_length (c : Shallot.Cell K) : ∀ (n : ℕ) (fy r : List (XF K)) res,
    Shallot.verticalLoop c n fy r = some res → fy.length = r.length →
    ∀ q, res = .ok q → q.1.length = q.2.length := by
  refine Shallot.verticalLoop.partial_correctness c
    (fun n fy r res => fy.length = r.length → ∀ q, res = .ok q → q.1.length = q.2.length) ?_
  intro loop ih n fy r res h hl q hq
  simp only at h
  split_ifs at h
  · cases h; cases hq
  · exact ih _ _ _ _ h (by simp [Shallot.radii, hl]) q hq
  · cases h; cases hq
  · cases h; cases hq; simp [Shallot.radii, hl]

/-- The vectors of a column have the length of the third axis; the samples belong together. -/
theorem column_lengths (c : Shallot.Cell K) (rf : List (XF K)) (hrf : rf ≠ [])
    (col : Shallot.Column K) (h : Shallot.column c rf = .ok col) :
    col.diskRadius.length = 2 * rf.length - 1 ∧ col.inclination.length = 2 * rf.length - 1 ∧
    col.tilt.length = 2 * rf.length - 1 ∧ col.fx.length = 2 * rf.length - 1 ∧
    col.fyValid.length = 2 * rf.length - 1 ∧ col.fy.length = col.radius.length := by
  unfold Shallot.column at h
  cases h1 : Shallot.ended (Shallot.horizontalLoop c 1 [] []) with
  | error e => rw [h1, error_bind] at h; cases h
  | ok p =>
  rw [h1, ok_bind] at h
  cases h2 : Shallot.ended (Shallot.verticalLoop c 1 p.1 p.2) with
  | error e => rw [h2, error_bind] at h; cases h
  | ok q =>
  rw [h2, ok_bind] at h
  have l1 : p.1.length = p.2.length := by
    cases hl : Shallot.horizontalLoop c 1 [] [] with
    | none => rw [hl] at h1; cases h1
    | some res =>
      rw [hl] at h1
      exact horizontalLoop_length c _ _ _ res hl rfl p h1
  have l2 : q.1.length = q.2.length := by
    cases hl : Shallot.verticalLoop c 1 p.1 p.2 with
    | none => rw [hl] at h2; cases h2
    | some res =>
      rw [hl] at h2
      exact verticalLoop_length c _ _ _ res hl l1 q h2
  cases h3 : nanargmin q.2 with
  | error e =>
    have : Shallot.interpolateScales c.dy rf q.1 q.2 = .error e := by
      unfold Shallot.interpolateScales
      simp only
      rw [h3, error_bind]
    rw [this, error_bind] at h
    cases h
  | ok i =>
    obtain ⟨v, hv, hvl, -⟩ := scales_ok c.dy rf q.1 q.2 hrf i h3
    rw [hv, ok_bind] at h
    cases h
    simp [hvl, l2]

/-! ## One cell -/

/-- The cell `(y', x')` comes before `(y, x)`. -/
def before (y x y' x' : ℕ) : Bool := decide (y' < y ∨ y' = y ∧ x' < x)

/-- The cube when all cells before `(y, x)` are done. -/
def Spec.cubeTo (g : GridParams K) (num y x : ℕ) (sel : Shallot.Column K → List (XF K)) : Nd K :=
  cubeOf g.dy.data.length g.dx.data.length (2 * g.rf.data.length - 1) fun y' x' r =>
    if before y x y' x' then layer g num sel y' x' r else .nan

/-- The state of a build when all cells before `(y, x)` are done, apart from the diagnostics. -/
def Spec.upTo (s : Shallot K) (y x : ℕ) (d : Option (Diagnostics K)) : Shallot K :=
  let num := s.numFxfy.toInt.toNat
  { s with
    diskRadius := { s.diskRadius with data := cubeTo s.params num y x (·.diskRadius) }
    inclination := { s.inclination with data := cubeTo s.params num y x (·.inclination) }
    tilt := { s.tilt with data := cubeTo s.params num y x (·.tilt) }
    fxMap := { s.fxMap with data := cubeTo s.params num y x (·.fx) }
    fyMap := { s.fyMap with data := cubeTo s.params num y x (·.fyValid) }
    diagnostics := d }

/-- The diagnostics when all cells before `(y, x)` are done. -/
def Spec.DiagnosticsTo (s : Shallot K) (y x : ℕ) (d : Option (Diagnostics K)) : Prop :=
  match d with
  | none => s.diagnostics = none
  | some d => s.diagnostics ≠ none ∧ d.extended = false ∧ d.maxY = s.params.sliceShape.1 ∧
    d.maxX = s.params.sliceShape.2 ∧
    ∀ y' x', y' < s.params.sliceShape.1 → x' < s.params.sliceShape.2 → before y x y' x' = true →
      ∀ col, columnFor s.params s.numFxfy.toInt.toNat y' x' = some col →
      d.get (.int y') (.int x') = .ok (col.fy, col.radius)

/-- The helper arrays belong to the parameters. -/
structure Spec.Helped (s : Shallot K) : Prop where
  shaped : ShapedGrid s.params
  radius : s.circularRadius = s.params.dy.data.map Geometry.circularRadius
  shear : s.shear = cubeOf s.params.dy.data.length s.params.dx.data.length 1 fun y x _ =>
    Geometry.shear (s.params.dx.data.getD x .nan) (s.params.dy.data.getD y .nan)

theorem cellOf_eq (s : Shallot K) (hs : Helped s) (y x : ℕ) (d) {y' x' : ℕ}
    (hy : y' < s.params.dy.data.length) (hx : x' < s.params.dx.data.length) :
    Shallot.cellOf (upTo s y x d) y' x' = cellFor s.params s.numFxfy.toInt.toNat y' x' := by
  unfold Shallot.cellOf cellFor upTo
  simp only
  rw [hs.shear, at3_cubeOf _ _ _ _ hy hx (by omega), hs.radius]
  congr 1
  rw [List.getD_eq_getElem?_getD, List.getElem?_map, List.getD_eq_getElem?_getD,
    List.getElem?_eq_getElem hy]
  rfl

theorem before_next (y x y' x' : ℕ) :
    before y (x + 1) y' x' = true ↔ before y x y' x' = true ∨ (y' = y ∧ x' = x) := by
  simp only [before, decide_eq_true_eq]; omega

theorem before_self (y x : ℕ) : before y x y x = false := by
  simp [before]

theorem cubeTo_skip (g : GridParams K) (num y x : ℕ) (sel : Shallot.Column K → List (XF K))
    (h : columnFor g num y x = none) : cubeTo g num y (x + 1) sel = cubeTo g num y x sel := by
  refine cubic_ext (cubic_cubeOf _ _ _ _) (cubic_cubeOf _ _ _ _) ?_
  intro y' x' r h1 h2 h3
  rw [cubeTo, cubeTo, at3_cubeOf _ _ _ _ h1 h2 h3, at3_cubeOf _ _ _ _ h1 h2 h3]
  by_cases hb : before y x y' x' = true
  · rw [if_pos hb, if_pos ((before_next _ _ _ _).2 (Or.inl hb))]
  · rw [if_neg hb]
    by_cases he : y' = y ∧ x' = x
    · obtain ⟨rfl, rfl⟩ := he
      rw [if_pos ((before_next _ _ _ _).2 (Or.inr ⟨rfl, rfl⟩))]
      unfold layer
      rw [h]
    · rw [if_neg]
      rw [before_next]
      exact fun h => h.elim hb he

theorem cubeTo_put (g : GridParams K) (num y x : ℕ) (sel : Shallot.Column K → List (XF K))
    (col : Shallot.Column K) (h : columnFor g num y x = some col)
    (hl : (sel col).length = 2 * g.rf.data.length - 1) :
    Shallot.putColumn (cubeTo g num y x sel) y x (sel col) = .ok (cubeTo g num y (x + 1) sel) := by
  unfold Shallot.putColumn
  have hs : (cubeTo g num y x sel).shape =
      [g.dy.data.length, g.dx.data.length, 2 * g.rf.data.length - 1] := rfl
  rw [hs]
  simp only
  rw [if_pos hl]
  congr 1
  refine cubic_ext (cubic_cubeOf _ _ _ _) (cubic_cubeOf _ _ _ _) ?_
  intro y' x' r h1 h2 h3
  rw [at3_cubeOf _ _ _ _ h1 h2 h3, cubeTo, cubeTo, at3_cubeOf _ _ _ _ h1 h2 h3,
    at3_cubeOf _ _ _ _ h1 h2 h3]
  by_cases he : y' = y ∧ x' = x
  · rw [if_pos he, if_pos ((before_next _ _ _ _).2 (Or.inr he))]
    unfold layer
    rw [he.1, he.2, h]
  · rw [if_neg he]
    by_cases hb : before y x y' x' = true
    · rw [if_pos hb, if_pos ((before_next _ _ _ _).2 (Or.inl hb))]
    · rw [if_neg hb, if_neg]
      rw [before_next]
      exact fun h => h.elim hb he

theorem setColumn_ok (y x : ℕ) (v : List (XF K)) (p : GProp K) (d : Nd K)
    (h : Shallot.putColumn p.data y x v = .ok d) :
    Shallot.setColumn y x v p = (.ok (), { p with data := d }) := by
  unfold Shallot.setColumn
  simp only [Meth.get_bind, h, Meth.lift_ok_bind, Meth.set_apply]

theorem onProp_ok {α : Type} (c : Cube) (m : Meth (GProp K) α) (s : Shallot K) (p p' : GProp K)
    (a : α) (h : s.prop c = some p) (hm : m p = (.ok a, p')) :
    Shallot.onProp c m s = (.ok a, s.setProp p' c) := by
  unfold Shallot.onProp
  rw [h]
  simp only [hm]

theorem bind_ok {S α β : Type} (m : Meth S α) (f : α → Meth S β) (s s' : S) (a : α)
    (h : m s = (.ok a, s')) : (m >>= f) s = f a s' := by
  rw [Meth.bind_apply, h]

theorem bind_err {S α β : Type} (m : Meth S α) (f : α → Meth S β) (s s' : S) (e : Err)
    (h : m s = (.error e, s')) : (m >>= f) s = (.error e, s') := by
  rw [Meth.bind_apply, h]

theorem storeColumn_ok (s : Shallot K) (hs : Helped s) (y x : ℕ) (d) (col : Shallot.Column K)
    (h : columnFor s.params s.numFxfy.toInt.toNat y x = some col) :
    Shallot.storeColumn y x col (upTo s y x d) = (.ok (), upTo s y (x + 1) d) := by
  obtain ⟨hcol, l1, l2, l3, l4, l5, l6⟩ :
      Shallot.column (cellFor s.params s.numFxfy.toInt.toNat y x) s.params.rf.data = .ok col ∧ _ ∧ _ ∧ _ ∧ _ ∧ _ ∧ _ := by
    unfold columnFor at h
    split_ifs at h
    cases hc : Shallot.column (cellFor s.params s.numFxfy.toInt.toNat y x) s.params.rf.data with
    | error e => rw [hc] at h; cases h
    | ok col' =>
      rw [hc] at h
      obtain rfl : col' = col := by simpa using h
      exact ⟨rfl, column_lengths _ _ hs.shaped.rf _ hc⟩
  unfold Shallot.storeColumn
  rw [bind_ok _ _ _ _ () (onProp_ok .diskRadius _ _ _ _ _ rfl
    (setColumn_ok _ _ _ _ _ (cubeTo_put _ _ _ _ (·.diskRadius) col h l1)))]
  rw [bind_ok _ _ _ _ () (onProp_ok .inclination _ _ _ _ _ rfl
    (setColumn_ok _ _ _ _ _ (cubeTo_put _ _ _ _ (·.inclination) col h l2)))]
  rw [bind_ok _ _ _ _ () (onProp_ok .tilt _ _ _ _ _ rfl
    (setColumn_ok _ _ _ _ _ (cubeTo_put _ _ _ _ (·.tilt) col h l3)))]
  rw [bind_ok _ _ _ _ () (onProp_ok .fxMap _ _ _ _ _ rfl
    (setColumn_ok _ _ _ _ _ (cubeTo_put _ _ _ _ (·.fx) col h l4)))]
  exact onProp_ok .fyMap _ _ _ _ _ rfl
    (setColumn_ok _ _ _ _ _ (cubeTo_put _ _ _ _ (·.fyValid) col h l5))

theorem storeDiagnostic_ok (s : Shallot K) (hs : Helped s) (y x : ℕ) (d) (col : Shallot.Column K)
    (hy : y < s.params.dy.data.length) (hx : x < s.params.dx.data.length)
    (hd : DiagnosticsTo s y x d)
    (h : columnFor s.params s.numFxfy.toInt.toNat y x = some col)
    (hl : col.fy.length = col.radius.length) :
    ∃ d', Shallot.storeDiagnostic y x col (upTo s y (x + 1) d) = (.ok (), upTo s y (x + 1) d') ∧
      DiagnosticsTo s y (x + 1) d' := by
  cases d with
  | none => exact ⟨none, rfl, hd⟩
  | some d =>
    obtain ⟨h1, h2, h3, h4, h5⟩ := hd
    rw [hs.shaped.slice] at h3 h4
    simp only at h3 h4
    have iy : IndexIn (K := K) (.int y) d.maxY := by
      rw [h3]; exact ⟨y, .int _, by omega, by exact_mod_cast hy⟩
    have ix : IndexIn (K := K) (.int x) d.maxX := by
      rw [h4]; exact ⟨x, .int _, by omega, by exact_mod_cast hx⟩
    have hgood : GoodVectors (K := K) (.arr ⟨"float64", [col.fy.length], col.fy⟩)
        (.arr ⟨"float64", [col.radius.length], col.radius⟩)
        ⟨"float64", [col.fy.length], col.fy⟩ ⟨"float64", [col.radius.length], col.radius⟩ := by
      constructor <;> simp [hl]
    obtain ⟨d', hsave⟩ := ((C27_save_ok_iff d h2 (.int y) (.int x)
      (.arr ⟨"float64", [col.fy.length], col.fy⟩)
      (.arr ⟨"float64", [col.radius.length], col.radius⟩)).1).2 ⟨⟨_, _, hgood⟩, iy, ix⟩
    have hpres := save_preserves d ⟨.int y, .int x, .arr ⟨"float64", [col.fy.length], col.fy⟩,
      .arr ⟨"float64", [col.radius.length], col.radius⟩⟩
    simp only [Meth.exec, hsave] at hpres
    refine ⟨some d', ?_, h1, hpres.1.trans h2, ?_, ?_, ?_⟩
    · unfold Shallot.storeDiagnostic
      simp only [upTo, hsave]
    · rw [hpres.2.1, h3, hs.shaped.slice]
    · rw [hpres.2.2, h4, hs.shaped.slice]
    · intro y' x' hy' hx' hb col' hcol'
      have hget := C27_get_after_save d d' (.int y) (.int x) _ _ _ _ hgood hsave (.int y') (.int x')
      by_cases he : y' = y ∧ x' = x
      · obtain ⟨rfl, rfl⟩ := he
        rw [h] at hcol'
        obtain rfl : col = col' := by simpa using hcol'
        exact hget.1 ⟨⟨⟨y', .int _, .int _⟩, by simp⟩, ⟨x', .int _, .int _⟩, by simp⟩
      · rw [hget.2]
        · exact h5 y' x' hy' hx' (((before_next _ _ _ _).1 hb).resolve_right he) col' hcol'
        · rintro ⟨⟨⟨n, a1, a2⟩, -⟩, ⟨m, b1, b2⟩, -⟩
          cases a1
          generalize hw : (y' : ℤ) = w at a2
          cases a2
          cases b1
          generalize hv : (x' : ℤ) = v at b2
          cases b2
          exact he ⟨by omega, by omega⟩

theorem diagnosticsTo_skip (s : Shallot K) (y x : ℕ) (d) (hd : DiagnosticsTo s y x d)
    (h : columnFor s.params s.numFxfy.toInt.toNat y x = none) : DiagnosticsTo s y (x + 1) d := by
  cases d with
  | none => exact hd
  | some d =>
    obtain ⟨h1, h2, h3, h4, h5⟩ := hd
    refine ⟨h1, h2, h3, h4, ?_⟩
    intro y' x' hy' hx' hb col hcol
    rcases (before_next _ _ _ _).1 hb with hb | ⟨rfl, rfl⟩
    · exact h5 y' x' hy' hx' hb col hcol
    · rw [h] at hcol; cases hcol

theorem upTo_skip (s : Shallot K) (y x : ℕ) (d)
    (h : columnFor s.params s.numFxfy.toInt.toNat y x = none) : upTo s y (x + 1) d = upTo s y x d := by
  unfold upTo
  simp only [cubeTo_skip _ _ _ _ _ h]

/-- One cell: it is done, or the exception of its column comes out and nothing has changed. -/
theorem buildCell_step (s : Shallot K) (hs : Helped s) (y x : ℕ) (d)
    (hy : y < s.params.dy.data.length) (hx : x < s.params.dx.data.length)
    (hd : DiagnosticsTo s y x d) :
    (Buildable s.params s.numFxfy.toInt.toNat y x → ∃ d',
      Shallot.buildCell y x (upTo s y x d) = (.ok (), upTo s y (x + 1) d') ∧
      DiagnosticsTo s y (x + 1) d') ∧
    (¬ Buildable s.params s.numFxfy.toInt.toNat y x → ∃ e,
      Shallot.column (cellFor s.params s.numFxfy.toInt.toNat y x) s.params.rf.data = .error e ∧
      Shallot.buildCell y x (upTo s y x d) = (.error e, upTo s y x d)) := by
  have hcell := cellOf_eq s hs y x d hy hx
  have hshear : (upTo s y x d).shear.at3 y x 0 = (cellFor s.params s.numFxfy.toInt.toNat y x).shear := by
    rw [← hcell]; rfl
  unfold Shallot.buildCell
  simp only [Meth.get_bind]
  rw [hshear, hcell]
  by_cases hn : (cellFor s.params s.numFxfy.toInt.toNat y x).shear.isNan = true
  · rw [if_pos hn]
    have hnone : columnFor s.params s.numFxfy.toInt.toNat y x = none := by
      unfold columnFor; rw [if_pos hn]
    refine ⟨fun _ => ⟨d, ?_, diagnosticsTo_skip s y x d hd hnone⟩, fun h => ?_⟩
    · rw [upTo_skip s y x d hnone]; rfl
    · exact absurd (Or.inl ((XF.isNan_iff _).1 hn)) h
  · rw [if_neg hn]
    have hn' : (cellFor s.params s.numFxfy.toInt.toNat y x).shear ≠ .nan :=
      fun h => hn ((XF.isNan_iff _).2 h)
    cases hc : Shallot.column (cellFor s.params s.numFxfy.toInt.toNat y x) s.params.rf.data with
    | error e =>
      refine ⟨fun h => ?_, fun _ => ⟨e, rfl, ?_⟩⟩
      · rcases h with h | ⟨col, h⟩
        · exact absurd h hn'
        · rw [hc] at h; cases h
      · have : (upTo s y x d).params.rf.data = s.params.rf.data := rfl
        rw [this, hc]; rfl
    | ok col =>
      refine ⟨fun _ => ?_, fun h => absurd (Or.inr ⟨col, hc⟩) h⟩
      have hcol : columnFor s.params s.numFxfy.toInt.toNat y x = some col := by
        unfold columnFor; rw [if_neg hn, hc]
      obtain ⟨d', hd1, hd2⟩ := storeDiagnostic_ok s hs y x d col hy hx hd hcol
        (column_lengths _ _ hs.shaped.rf _ hc).2.2.2.2.2
      refine ⟨d', ?_, hd2⟩
      have : (upTo s y x d).params.rf.data = s.params.rf.data := rfl
      rw [this, hc, Meth.lift_ok_bind, bind_ok _ _ _ _ () (storeColumn_ok s hs y x d col hcol)]
      exact hd1

/-! ## Rows -/

/-- Cells in rows `y` and columns `x`. -/
theorem buildRow_spec (s : Shallot K) (hs : Helped s) (y : ℕ) (hy : y < s.params.dy.data.length) :
    ∀ (n x : ℕ) (d), x + n ≤ s.params.dx.data.length → DiagnosticsTo s y x d →
    ((∀ j, x ≤ j → j < x + n → Buildable s.params s.numFxfy.toInt.toNat y j) → ∃ d',
      Shallot.buildRow y n x (upTo s y x d) = (.ok (), upTo s y (x + n) d') ∧
      DiagnosticsTo s y (x + n) d') ∧
    ((∃ j, x ≤ j ∧ j < x + n ∧ ¬ Buildable s.params s.numFxfy.toInt.toNat y j) → ∃ e s',
      Shallot.buildRow y n x (upTo s y x d) = (.error e, s') ∧ s'.params = s.params) := by
  intro n
  induction n with
  | zero =>
    intro x d hx hd
    refine ⟨fun _ => ⟨d, rfl, hd⟩, ?_⟩
    rintro ⟨j, h1, h2, -⟩
    omega
  | succ n ih =>
    intro x d hx hd
    have hstep := buildCell_step s hs y x d hy (by omega) hd
    unfold Shallot.buildRow
    constructor
    · intro hall
      obtain ⟨d1, h1, h2⟩ := hstep.1 (hall x le_rfl (by omega))
      rw [bind_ok _ _ _ _ () h1]
      obtain ⟨d2, h3, h4⟩ := (ih (x + 1) d1 (by omega) h2).1
        (fun j a b => hall j (by omega) (by omega))
      rw [show x + (n + 1) = x + 1 + n by omega]
      exact ⟨d2, h3, h4⟩
    · rintro ⟨j, a, b, hj⟩
      by_cases hb : Buildable s.params s.numFxfy.toInt.toNat y x
      · obtain ⟨d1, h1, h2⟩ := hstep.1 hb
        rw [bind_ok _ _ _ _ () h1]
        have : x ≠ j := fun e => hj (e ▸ hb)
        exact (ih (x + 1) d1 (by omega) h2).2 ⟨j, by omega, by omega, hj⟩
      · obtain ⟨e, -, h1⟩ := hstep.2 hb
        rw [bind_err _ _ _ _ _ h1]
        exact ⟨_, _, rfl, rfl⟩

theorem before_row (y nx y' x' : ℕ) (h : x' < nx) : before y nx y' x' = before (y + 1) 0 y' x' := by
  unfold before
  exact decide_eq_decide.2 (by omega)

theorem cubeTo_row (g : GridParams K) (num y : ℕ) (sel : Shallot.Column K → List (XF K)) :
    cubeTo g num y g.dx.data.length sel = cubeTo g num (y + 1) 0 sel := by
  refine cubic_ext (cubic_cubeOf _ _ _ _) (cubic_cubeOf _ _ _ _) ?_
  intro y' x' r h1 h2 h3
  rw [cubeTo, cubeTo, at3_cubeOf _ _ _ _ h1 h2 h3, at3_cubeOf _ _ _ _ h1 h2 h3,
    before_row _ _ _ _ h2]

theorem upTo_row (s : Shallot K) (y : ℕ) (d) :
    upTo s y s.params.dx.data.length d = upTo s (y + 1) 0 d := by
  have h := fun sel => cubeTo_row s.params s.numFxfy.toInt.toNat y sel
  unfold upTo
  simp only
  rw [h, h, h, h, h]

theorem diagnosticsTo_row (s : Shallot K) (hs : Helped s) (y : ℕ) (d)
    (h : DiagnosticsTo s y s.params.dx.data.length d) : DiagnosticsTo s (y + 1) 0 d := by
  cases d with
  | none => exact h
  | some d =>
    obtain ⟨h1, h2, h3, h4, h5⟩ := h
    refine ⟨h1, h2, h3, h4, ?_⟩
    intro y' x' hy' hx' hb
    refine h5 y' x' hy' hx' ?_
    rw [hs.shaped.slice] at hx'
    rw [before_row _ _ _ _ hx']
    exact hb

theorem buildRows_spec (s : Shallot K) (hs : Helped s) :
    ∀ (n y : ℕ) (d), y + n ≤ s.params.dy.data.length → DiagnosticsTo s y 0 d →
    ((∀ i j, y ≤ i → i < y + n → j < s.params.dx.data.length →
        Buildable s.params s.numFxfy.toInt.toNat i j) → ∃ d',
      Shallot.buildRows n y (upTo s y 0 d) = (.ok (), upTo s (y + n) 0 d') ∧
      DiagnosticsTo s (y + n) 0 d') ∧
    ((∃ i j, y ≤ i ∧ i < y + n ∧ j < s.params.dx.data.length ∧
        ¬ Buildable s.params s.numFxfy.toInt.toNat i j) → ∃ e s',
      Shallot.buildRows n y (upTo s y 0 d) = (.error e, s') ∧ s'.params = s.params) := by
  intro n
  induction n with
  | zero =>
    intro y d hy hd
    refine ⟨fun _ => ⟨d, rfl, hd⟩, ?_⟩
    rintro ⟨i, j, h1, h2, -⟩
    omega
  | succ n ih =>
    intro y d hy hd
    have hrow := buildRow_spec s hs y (by omega) s.params.dx.data.length 0 d (by omega) hd
    rw [Nat.zero_add] at hrow
    have hslice : (upTo s y 0 d).params.sliceShape.2 = s.params.dx.data.length := by
      show s.params.sliceShape.2 = _
      rw [hs.shaped.slice]
    unfold Shallot.buildRows
    rw [Meth.get_bind, hslice]
    have hok : (∀ j, j < s.params.dx.data.length →
        Buildable s.params s.numFxfy.toInt.toNat y j) → ∃ d',
        Shallot.buildRow y s.params.dx.data.length 0 (upTo s y 0 d) =
          (.ok (), upTo s (y + 1) 0 d') ∧ DiagnosticsTo s (y + 1) 0 d' := by
      intro hall
      obtain ⟨d1, h1, h2⟩ := hrow.1 (fun j _ b => hall j b)
      rw [upTo_row] at h1
      exact ⟨d1, h1, diagnosticsTo_row s hs y d1 h2⟩
    constructor
    · intro hall
      obtain ⟨d1, h1, h2⟩ := hok (fun j b => hall y j le_rfl (by omega) b)
      rw [bind_ok _ _ _ _ () h1]
      obtain ⟨d2, h3, h4⟩ := (ih (y + 1) d1 (by omega) h2).1
        (fun i j a b c => hall i j (by omega) (by omega) c)
      rw [show y + (n + 1) = y + 1 + n by omega]
      exact ⟨d2, h3, h4⟩
    · rintro ⟨i, j, a, b, c, hij⟩
      by_cases hall : ∀ j, j < s.params.dx.data.length →
          Buildable s.params s.numFxfy.toInt.toNat y j
      · obtain ⟨d1, h1, h2⟩ := hok hall
        rw [bind_ok _ _ _ _ () h1]
        have : y ≠ i := fun e => hij (e ▸ hall j c)
        exact (ih (y + 1) d1 (by omega) h2).2 ⟨i, j, by omega, by omega, c, hij⟩
      · push Not at hall
        obtain ⟨j', hj', hn⟩ := hall
        obtain ⟨e, s', h1, h2⟩ := hrow.2 ⟨j', by omega, hj', hn⟩
        rw [bind_err _ _ _ _ _ h1]
        exact ⟨_, _, rfl, h2⟩

/-! ## The whole build -/

/-- A property as the constructor makes it, with the default limits of its data. -/
def Spec.fresh (name : PropName) (unit : PropUnit) (g : GridParams K) (d : Nd K) (color : String) :
    GProp K :=
  ⟨name, unit, g, d, none, nanmin d.data, nanmax d.data, color, 11⟩

/-- The cube of a complete build. -/
def Spec.built (g : GridParams K) (num : ℕ) (sel : Shallot.Column K → List (XF K)) : Nd K :=
  cubeOf g.dy.data.length g.dx.data.length (2 * g.rf.data.length - 1) fun y x r =>
    layer g num sel y x r

theorem cubeTo_all (g : GridParams K) (num : ℕ) (sel : Shallot.Column K → List (XF K)) :
    cubeTo g num g.dy.data.length 0 sel = built g num sel := by
  refine cubic_ext (cubic_cubeOf _ _ _ _) (cubic_cubeOf _ _ _ _) ?_
  intro y x r h1 h2 h3
  rw [cubeTo, built, at3_cubeOf _ _ _ _ h1 h2 h3, at3_cubeOf _ _ _ _ h1 h2 h3, if_pos]
  simp [before, h1]

theorem cubeTo_none (g : GridParams K) (num : ℕ) (sel : Shallot.Column K → List (XF K)) :
    cubeTo g num 0 0 sel =
      cubeOf g.dy.data.length g.dx.data.length (2 * g.rf.data.length - 1) fun _ _ _ => .nan := by
  refine cubic_ext (cubic_cubeOf _ _ _ _) (cubic_cubeOf _ _ _ _) ?_
  intro y x r h1 h2 h3
  rw [cubeTo, at3_cubeOf _ _ _ _ h1 h2 h3, at3_cubeOf _ _ _ _ h1 h2 h3, if_neg]
  simp [before]

/-- The grid that a complete build gives. -/
def Spec.builtGrid (g : GridParams K) (n : PyVal K) (d : Option (Diagnostics K)) : Shallot K :=
  let num := n.toInt.toNat
  { params := g, numFxfy := n, diagnostics := d
    circularRadius := g.dy.data.map Geometry.circularRadius
    shear := cubeOf g.dy.data.length g.dx.data.length 1 fun y x _ =>
      Geometry.shear (g.dx.data.getD x .nan) (g.dy.data.getD y .nan)
    diskRadius := fresh .diskRadius .eclipseDuration g (built g num (·.diskRadius)) "viridis"
    inclination := fresh .inclination .degree g (built g num (·.inclination)) "viridis"
    tilt := fresh .tilt .degree g (built g num (·.tilt)) "twilight"
    fxMap := fresh .fxMap .none g (built g num (·.fx)) "viridis"
    fyMap := fresh .fyMap .none g (built g num (·.fyValid)) "viridis"
    diagnosticMap := none, gradients := none, gradientFit := none
    eclipseDuration := none, velocity := none, limb := none }

theorem emptyProp (g : GridParams K) (hg : ShapedGrid g) (name : PropName) (unit : PropUnit) :
    GProp.new name unit (Shallot.emptyCube g) g = .ok (fresh name unit g
      (cubeOf g.dy.data.length g.dx.data.length (2 * g.rf.data.length - 1) fun _ _ _ => .nan)
      "viridis") := by
  rw [prop_new_ok_iff]
  refine ⟨_, rfl, rfl, rfl, ?_⟩
  simp only [hg.grid, fresh]

/-- The grid after `_initialise_grid_properties`. -/
def emptyGrid (g : GridParams K) (n : PyVal K) (d : Option (Diagnostics K)) : Shallot K :=
  let e := cubeOf g.dy.data.length g.dx.data.length (2 * g.rf.data.length - 1) fun _ _ _ =>
    (XF.nan : XF K)
  { builtGrid g n d with
    diskRadius := fresh .diskRadius .eclipseDuration g e "viridis"
    inclination := fresh .inclination .degree g e "viridis"
    tilt := fresh .tilt .degree g e "viridis"
    fxMap := fresh .fxMap .none g e "viridis"
    fyMap := fresh .fyMap .none g e "viridis" }

theorem initialise_ok (g : GridParams K) (hg : ShapedGrid g) (n : PyVal K) (keep : Bool) :
    Shallot.initialise (Shallot.bare g n keep) =
      (.ok (), emptyGrid g n (if keep then some (Diagnostics.new g) else none)) := by
  have hp : (Shallot.bare g n keep).params = g := rfl
  unfold Shallot.initialise
  simp only [Meth.get_bind, hp, emptyProp g hg, Meth.lift_ok_bind, Meth.modify_bind,
    Meth.modify_apply]
  unfold Shallot.bare Shallot.helpers emptyGrid builtGrid
  simp only [hg.slice]

theorem helped_empty (g : GridParams K) (hg : ShapedGrid g) (n : PyVal K) (d) :
    Helped (emptyGrid g n d) := ⟨hg, rfl, rfl⟩

theorem recolor_upTo (g : GridParams K) (n : PyVal K) (d0 d) :
    Shallot.recolorAll (upTo (emptyGrid g n d0) g.dy.data.length 0 d) =
      (.ok (), builtGrid g n d) := by
  unfold Shallot.recolorAll
  rw [bind_ok _ _ _ _ () (onProp_ok .diskRadius _ _ _ _ _ rfl (recolor_eq _ _)),
    bind_ok _ _ _ _ () (onProp_ok .inclination _ _ _ _ _ rfl (recolor_eq _ _)),
    bind_ok _ _ _ _ () (onProp_ok .tilt _ _ _ _ _ rfl (recolor_eq _ _)),
    bind_ok _ _ _ _ () (onProp_ok .fxMap _ _ _ _ _ rfl (recolor_eq _ _)),
    bind_ok _ _ _ _ () (onProp_ok .fyMap _ _ _ _ _ rfl (recolor_eq _ _))]
  refine Prod.ext rfl ?_
  have hp : (emptyGrid g n d0).params = g := rfl
  have hn : (emptyGrid g n d0).numFxfy = n := rfl
  unfold upTo
  simp only [hp, hn, cubeTo_all]
  rfl

/-- **C72** A build succeeds exactly if every cell can be done. -/
theorem C72_build (g : GridParams K) (hg : ShapedGrid g) (n : PyVal K) (keep : Bool) :
    ((∀ y x, y < g.dy.data.length → x < g.dx.data.length → Buildable g n.toInt.toNat y x) →
      ∃ d, Shallot.build 0 (Shallot.bare g n keep) = (.ok (), builtGrid g n d) ∧
        DiagnosticsTo (builtGrid g n (if keep then some (Diagnostics.new g) else none))
          g.dy.data.length 0 d) ∧
    ((∃ y x, y < g.dy.data.length ∧ x < g.dx.data.length ∧ ¬ Buildable g n.toInt.toNat y x) →
      ∃ e s, Shallot.build 0 (Shallot.bare g n keep) = (.error e, s) ∧ s.params = g) := by
  obtain ⟨d0, hd0⟩ : ∃ d, d = if keep then some (Diagnostics.new g) else none := ⟨_, rfl⟩
  have hup : emptyGrid g n d0 = upTo (emptyGrid g n d0) 0 0 d0 := by
    have hp : (emptyGrid g n d0).params = g := rfl
    unfold upTo
    simp only [hp, cubeTo_none]
    rfl
  have hdt : DiagnosticsTo (emptyGrid g n d0) 0 0 d0 := by
    cases keep with
    | false => rw [hd0]; rfl
    | true =>
      rw [hd0]
      refine ⟨by simp [emptyGrid, builtGrid], rfl, rfl, rfl, ?_⟩
      intro y' x' _ _ hb
      simp [before] at hb
  have hrows := buildRows_spec (emptyGrid g n d0) (helped_empty g hg n d0) g.dy.data.length 0 d0
    (by rw [Nat.zero_add]; exact le_rfl) hdt
  rw [Nat.zero_add] at hrows
  have hslice : (emptyGrid g n d0).params.sliceShape.1 - 0 = g.dy.data.length := by
    show g.sliceShape.1 - 0 = _
    rw [hg.slice]; rfl
  unfold Shallot.build
  rw [if_pos rfl, bind_ok _ _ _ _ () (initialise_ok g hg n keep), ← hd0]
  simp only [Meth.get_bind]
  rw [hslice]
  rw [← hup] at hrows
  constructor
  · intro hall
    obtain ⟨d, h1, h2⟩ := hrows.1 (fun i j _ b c => hall i j b c)
    rw [bind_ok _ _ _ _ () h1, recolor_upTo]
    exact ⟨d, rfl, h2⟩
  · rintro ⟨y, x, a, b, c⟩
    obtain ⟨e, s', h, hp⟩ := hrows.2 ⟨y, x, by omega, a, b, c⟩
    rw [bind_err _ _ _ _ _ h]
    exact ⟨e, s', rfl, hp⟩

end
end Beyonce
