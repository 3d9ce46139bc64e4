import Verif.Props.Complete

/-!
# A build that goes on from a row

Each cube may already hold more rows than the row from which the build goes on.
-/

set_option linter.unusedSectionVars false

namespace Beyonce
open Spec

section
variable {K : Type} [Field K] [LinearOrder K] [IsStrictOrderedRing K] [RealFns K] [FloorRing K]

/-- The cube when all cells before `(y, x)` and the first `k` rows are done. -/
def cubeAhead (g : GridParams K) (num y x k : ℕ) (sel : Shallot.Column K → List (XF K)) : Nd K :=
  cubeOf g.dy.data.length g.dx.data.length (2 * g.rf.data.length - 1) fun y' x' r =>
    if before y x y' x' = true ∨ y' < k then layer g num sel y' x' r else .nan

theorem ahead_ext (g : GridParams K) (num y x k y₂ x₂ k₂ : ℕ) (sel : Shallot.Column K → List (XF K))
    (h : ∀ y' x', y' < g.dy.data.length → x' < g.dx.data.length →
      ((before y x y' x' = true ∨ y' < k ↔ before y₂ x₂ y' x' = true ∨ y' < k₂) ∨
        columnFor g num y' x' = none)) :
    cubeAhead g num y x k sel = cubeAhead g num y₂ x₂ k₂ sel := by
  refine cubic_ext (cubic_cubeOf _ _ _ _) (cubic_cubeOf _ _ _ _) ?_
  intro y' x' r h1 h2 h3
  rw [cubeAhead, cubeAhead, at3_cubeOf _ _ _ _ h1 h2 h3, at3_cubeOf _ _ _ _ h1 h2 h3]
  rcases h y' x' h1 h2 with h | h
  · by_cases hc : before y x y' x' = true ∨ y' < k
    · rw [if_pos hc, if_pos (h.1 hc)]
    · rw [if_neg hc, if_neg (fun h' => hc (h.2 h'))]
  · have : layer g num sel y' x' r = .nan := by unfold layer; rw [h]
    rw [this]
    split_ifs <;> rfl

theorem ahead_cubeTo (g : GridParams K) (num y k : ℕ) (sel : Shallot.Column K → List (XF K)) (h : y ≤ k) :
    cubeAhead g num y 0 k sel = cubeTo g num k 0 sel := by
  have : cubeTo g num k 0 sel = cubeAhead g num k 0 0 sel := by
    refine cubic_ext (cubic_cubeOf _ _ _ _) (cubic_cubeOf _ _ _ _) ?_
    intro y' x' r h1 h2 h3
    rw [cubeAhead, cubeTo, at3_cubeOf _ _ _ _ h1 h2 h3, at3_cubeOf _ _ _ _ h1 h2 h3]
    by_cases hb : before k 0 y' x' = true
    · rw [if_pos hb, if_pos (Or.inl hb)]
    · rw [if_neg hb, if_neg (by rintro (h | h); exacts [hb h, absurd h (by omega)])]
  rw [this]
  refine ahead_ext _ _ _ _ _ _ _ _ _ ?_
  intro y' x' _ _
  left
  simp only [before, decide_eq_true_eq]
  omega

theorem ahead_skip (g : GridParams K) (num y x k : ℕ) (sel : Shallot.Column K → List (XF K))
    (h : columnFor g num y x = none) : cubeAhead g num y (x + 1) k sel = cubeAhead g num y x k sel := by
  refine ahead_ext _ _ _ _ _ _ _ _ _ ?_
  intro y' x' _ _
  by_cases he : y' = y ∧ x' = x
  · right; rw [he.1, he.2, h]
  · left
    rw [before_next]
    constructor
    · rintro ((h | h) | h)
      exacts [Or.inl h, absurd h he, Or.inr h]
    · rintro (h | h)
      exacts [Or.inl (Or.inl h), Or.inr h]

theorem ahead_put (g : GridParams K) (num y x k : ℕ) (sel : Shallot.Column K → List (XF K))
    (col : Shallot.Column K) (h : columnFor g num y x = some col)
    (hl : (sel col).length = 2 * g.rf.data.length - 1) :
    Shallot.putColumn (cubeAhead g num y x k sel) y x (sel col) = .ok (cubeAhead g num y (x + 1) k sel) := by
  unfold Shallot.putColumn
  have hs : (cubeAhead g num y x k sel).shape =
      [g.dy.data.length, g.dx.data.length, 2 * g.rf.data.length - 1] := rfl
  rw [hs]
  simp only
  rw [if_pos hl]
  congr 1
  refine cubic_ext (cubic_cubeOf _ _ _ _) (cubic_cubeOf _ _ _ _) ?_
  intro y' x' r h1 h2 h3
  rw [at3_cubeOf _ _ _ _ h1 h2 h3, cubeAhead, cubeAhead, at3_cubeOf _ _ _ _ h1 h2 h3,
    at3_cubeOf _ _ _ _ h1 h2 h3]
  by_cases he : y' = y ∧ x' = x
  · rw [if_pos he, if_pos (Or.inl ((before_next _ _ _ _).2 (Or.inr he)))]
    unfold layer
    rw [he.1, he.2, h]
  · rw [if_neg he]
    by_cases hb : before y x y' x' = true ∨ y' < k
    · rw [if_pos hb, if_pos (hb.imp (fun h => (before_next _ _ _ _).2 (Or.inl h)) id)]
    · rw [if_neg hb, if_neg]
      rw [before_next]
      rintro ((h | h) | h)
      exacts [hb (Or.inl h), he h, hb (Or.inr h)]

theorem ahead_row (g : GridParams K) (num y k : ℕ) (sel : Shallot.Column K → List (XF K)) :
    cubeAhead g num y g.dx.data.length k sel = cubeAhead g num (y + 1) 0 k sel := by
  refine ahead_ext _ _ _ _ _ _ _ _ _ ?_
  intro y' x' _ hx
  left
  rw [before_row _ _ _ _ hx]

theorem ahead_all (g : GridParams K) (num k : ℕ) (sel : Shallot.Column K → List (XF K)) :
    cubeAhead g num g.dy.data.length 0 k sel = built g num sel := by
  rw [← cubeTo_all, ← ahead_cubeTo g num g.dy.data.length g.dy.data.length sel le_rfl]
  refine ahead_ext _ _ _ _ _ _ _ _ _ ?_
  intro y' x' hy _
  left
  simp only [before, decide_eq_true_eq]
  omega

/-- The state of a build without diagnostics when all cells before `(y, x)` are done, and of each cube
the first `m` rows. -/
def aheadOf (s : Shallot K) (m : Cube → ℕ) (y x : ℕ) : Shallot K :=
  let num := s.numFxfy.toInt.toNat
  { s with
    diskRadius := { s.diskRadius with data := cubeAhead s.params num y x (m .diskRadius) (·.diskRadius) }
    inclination := { s.inclination with data := cubeAhead s.params num y x (m .inclination) (·.inclination) }
    tilt := { s.tilt with data := cubeAhead s.params num y x (m .tilt) (·.tilt) }
    fxMap := { s.fxMap with data := cubeAhead s.params num y x (m .fxMap) (·.fx) }
    fyMap := { s.fyMap with data := cubeAhead s.params num y x (m .fyMap) (·.fyValid) } }

theorem aheadOf_row (s : Shallot K) (m : Cube → ℕ) (y : ℕ) :
    aheadOf s m y s.params.dx.data.length = aheadOf s m (y + 1) 0 := by
  have h := fun k sel => ahead_row s.params s.numFxfy.toInt.toNat y k sel
  unfold aheadOf
  simp only
  rw [h, h, h, h, h]

theorem storeColumn_ahead (s : Shallot K) (hs : Helped s) (m : Cube → ℕ) (y x : ℕ) (col : Shallot.Column K)
    (h : columnFor s.params s.numFxfy.toInt.toNat y x = some col) :
    Shallot.storeColumn y x col (aheadOf s m y x) = (.ok (), aheadOf s m y (x + 1)) := by
  obtain ⟨hcol, l1, l2, l3, l4, l5, l6⟩ :
      Shallot.column (cellFor s.params s.numFxfy.toInt.toNat y x) s.params.rf.data = .ok col ∧ _ ∧ _ ∧ _ ∧ _ ∧ _ ∧ _ := by
    unfold columnFor at h
    split_ifs at h
    cases hc : Shallot.column (cellFor s.params s.numFxfy.toInt.toNat y x) s.params.rf.data with
    | error e => rw [hc] at h; cases h
    | ok col' =>
      rw [hc] at h
      obtain rfl : col' = col := by simpa using h
      exact ⟨rfl, column_lengths _ _ hs.shaped.rf _ hc⟩
  unfold Shallot.storeColumn
  rw [bind_ok _ _ _ _ () (onProp_ok .diskRadius _ _ _ _ _ rfl
    (setColumn_ok _ _ _ _ _ (ahead_put s.params s.numFxfy.toInt.toNat y x (m .diskRadius) (·.diskRadius) col h l1)))]
  rw [bind_ok _ _ _ _ () (onProp_ok .inclination _ _ _ _ _ rfl
    (setColumn_ok _ _ _ _ _ (ahead_put s.params s.numFxfy.toInt.toNat y x (m .inclination) (·.inclination) col h l2)))]
  rw [bind_ok _ _ _ _ () (onProp_ok .tilt _ _ _ _ _ rfl
    (setColumn_ok _ _ _ _ _ (ahead_put s.params s.numFxfy.toInt.toNat y x (m .tilt) (·.tilt) col h l3)))]
  rw [bind_ok _ _ _ _ () (onProp_ok .fxMap _ _ _ _ _ rfl
    (setColumn_ok _ _ _ _ _ (ahead_put s.params s.numFxfy.toInt.toNat y x (m .fxMap) (·.fx) col h l4)))]
  rw [onProp_ok .fyMap _ _ _ _ _ rfl
    (setColumn_ok _ _ _ _ _ (ahead_put s.params s.numFxfy.toInt.toNat y x (m .fyMap) (·.fyValid) col h l5))]
  rfl

theorem cellOf_ahead (s : Shallot K) (hs : Helped s) (m : Cube → ℕ) (y x : ℕ) {y' x' : ℕ}
    (hy : y' < s.params.dy.data.length) (hx : x' < s.params.dx.data.length) :
    Shallot.cellOf (aheadOf s m y x) y' x' = cellFor s.params s.numFxfy.toInt.toNat y' x' := by
  unfold Shallot.cellOf cellFor aheadOf
  simp only
  rw [hs.shear, at3_cubeOf _ _ _ _ hy hx (by omega), hs.radius]
  congr 1
  rw [List.getD_eq_getElem?_getD, List.getElem?_map, List.getD_eq_getElem?_getD,
    List.getElem?_eq_getElem hy]
  rfl

theorem buildCell_ahead (s : Shallot K) (hs : Helped s) (hd : s.diagnostics = none) (m : Cube → ℕ)
    (y x : ℕ) (hy : y < s.params.dy.data.length) (hx : x < s.params.dx.data.length) :
    (Buildable s.params s.numFxfy.toInt.toNat y x →
      Shallot.buildCell y x (aheadOf s m y x) = (.ok (), aheadOf s m y (x + 1))) ∧
    (¬ Buildable s.params s.numFxfy.toInt.toNat y x → ∃ e,
      Shallot.buildCell y x (aheadOf s m y x) = (.error e, aheadOf s m y x)) := by
  have hcell := cellOf_ahead s hs m y x hy hx
  have hshear : (aheadOf s m y x).shear.at3 y x 0 =
      (cellFor s.params s.numFxfy.toInt.toNat y x).shear := by
    rw [← hcell]; rfl
  have hrf : (aheadOf s m y x).params.rf.data = s.params.rf.data := rfl
  unfold Shallot.buildCell
  simp only [Meth.get_bind]
  rw [hshear, hcell, hrf]
  by_cases hn : (cellFor s.params s.numFxfy.toInt.toNat y x).shear.isNan = true
  · rw [if_pos hn]
    have hnone : columnFor s.params s.numFxfy.toInt.toNat y x = none := by
      unfold columnFor; rw [if_pos hn]
    refine ⟨fun _ => ?_, fun h => absurd (Or.inl ((XF.isNan_iff _).1 hn)) h⟩
    have h := fun k sel => ahead_skip s.params s.numFxfy.toInt.toNat y x k sel hnone
    have : aheadOf s m y (x + 1) = aheadOf s m y x := by
      unfold aheadOf
      simp only
      rw [h, h, h, h, h]
    rw [this]; rfl
  · rw [if_neg hn]
    have hn' : (cellFor s.params s.numFxfy.toInt.toNat y x).shear ≠ .nan :=
      fun h => hn ((XF.isNan_iff _).2 h)
    cases hc : Shallot.column (cellFor s.params s.numFxfy.toInt.toNat y x) s.params.rf.data with
    | error e =>
      refine ⟨fun h => ?_, fun _ => ⟨e, rfl⟩⟩
      rcases h with h | ⟨col, h⟩
      · exact absurd h hn'
      · rw [hc] at h; cases h
    | ok col =>
      refine ⟨fun _ => ?_, fun h => absurd (Or.inr ⟨col, hc⟩) h⟩
      have hcol : columnFor s.params s.numFxfy.toInt.toNat y x = some col := by
        unfold columnFor; rw [if_neg hn, hc]
      rw [Meth.lift_ok_bind, bind_ok _ _ _ _ () (storeColumn_ahead s hs m y x col hcol)]
      have hd' : (aheadOf s m y (x + 1)).diagnostics = none := hd
      unfold Shallot.storeDiagnostic
      rw [hd']

theorem buildRow_ahead (s : Shallot K) (hs : Helped s) (hd : s.diagnostics = none) (m : Cube → ℕ) (y : ℕ)
    (hy : y < s.params.dy.data.length) : ∀ (n x : ℕ), x + n ≤ s.params.dx.data.length →
    ((∀ j, x ≤ j → j < x + n → Buildable s.params s.numFxfy.toInt.toNat y j) →
      Shallot.buildRow y n x (aheadOf s m y x) = (.ok (), aheadOf s m y (x + n))) ∧
    ((∃ j, x ≤ j ∧ j < x + n ∧ ¬ Buildable s.params s.numFxfy.toInt.toNat y j) → ∃ e s',
      Shallot.buildRow y n x (aheadOf s m y x) = (.error e, s')) := by
  intro n
  induction n with
  | zero =>
    intro x hx
    refine ⟨fun _ => rfl, ?_⟩
    rintro ⟨j, h1, h2, -⟩
    omega
  | succ n ih =>
    intro x hx
    have hstep := buildCell_ahead s hs hd m y x hy (by omega)
    unfold Shallot.buildRow
    constructor
    · intro hall
      rw [bind_ok _ _ _ _ () (hstep.1 (hall x le_rfl (by omega))), show x + (n + 1) = x + 1 + n by omega]
      exact (ih (x + 1) (by omega)).1 (fun j a b => hall j (by omega) (by omega))
    · rintro ⟨j, a, b, hj⟩
      by_cases hb : Buildable s.params s.numFxfy.toInt.toNat y x
      · rw [bind_ok _ _ _ _ () (hstep.1 hb)]
        have : x ≠ j := fun e => hj (e ▸ hb)
        exact (ih (x + 1) (by omega)).2 ⟨j, by omega, by omega, hj⟩
      · obtain ⟨e, h1⟩ := hstep.2 hb
        rw [bind_err _ _ _ _ _ h1]
        exact ⟨_, _, rfl⟩

/-- One whole row. -/
theorem wholeRow_ahead (s : Shallot K) (hs : Helped s) (hd : s.diagnostics = none) (m : Cube → ℕ) (y : ℕ)
    (hy : y < s.params.dy.data.length) :
    ((∀ j, j < s.params.dx.data.length → Buildable s.params s.numFxfy.toInt.toNat y j) →
      Shallot.buildRow y (aheadOf s m y 0).params.sliceShape.2 0 (aheadOf s m y 0) =
        (.ok (), aheadOf s m (y + 1) 0)) ∧
    ((∃ j, j < s.params.dx.data.length ∧ ¬ Buildable s.params s.numFxfy.toInt.toNat y j) → ∃ e s',
      Shallot.buildRow y (aheadOf s m y 0).params.sliceShape.2 0 (aheadOf s m y 0) = (.error e, s')) := by
  have hrow := buildRow_ahead s hs hd m y hy s.params.dx.data.length 0 (by omega)
  have hslice : (aheadOf s m y 0).params.sliceShape.2 = s.params.dx.data.length := by
    show s.params.sliceShape.2 = _
    rw [hs.shaped.slice]
  rw [Nat.zero_add, aheadOf_row] at hrow
  rw [hslice]
  exact ⟨fun h => hrow.1 (fun j _ hj => h j hj), fun ⟨j, h1, h2⟩ => hrow.2 ⟨j, by omega, h1, h2⟩⟩

theorem buildRows_ahead (s : Shallot K) (hs : Helped s) (hd : s.diagnostics = none) (m : Cube → ℕ) :
    ∀ (n y : ℕ), y + n ≤ s.params.dy.data.length →
    ((∀ i j, y ≤ i → i < y + n → j < s.params.dx.data.length →
        Buildable s.params s.numFxfy.toInt.toNat i j) →
      Shallot.buildRows n y (aheadOf s m y 0) = (.ok (), aheadOf s m (y + n) 0)) ∧
    ((∃ i j, y ≤ i ∧ i < y + n ∧ j < s.params.dx.data.length ∧
        ¬ Buildable s.params s.numFxfy.toInt.toNat i j) → ∃ e s',
      Shallot.buildRows n y (aheadOf s m y 0) = (.error e, s')) := by
  intro n
  induction n with
  | zero =>
    intro y hy
    refine ⟨fun _ => rfl, ?_⟩
    rintro ⟨i, j, h1, h2, -⟩
    omega
  | succ n ih =>
    intro y hy
    have hrow := wholeRow_ahead s hs hd m y (by omega)
    unfold Shallot.buildRows
    simp only [Meth.get_bind]
    constructor
    · intro hall
      rw [bind_ok _ _ _ _ () (hrow.1 fun j hj => hall y j le_rfl (by omega) hj),
        show y + (n + 1) = y + 1 + n by omega]
      exact (ih (y + 1) (by omega)).1 fun i j a b c => hall i j (by omega) (by omega) c
    · rintro ⟨i, j, a, b, c, hn⟩
      by_cases hb : ∀ j, j < s.params.dx.data.length → Buildable s.params s.numFxfy.toInt.toNat y j
      · rw [bind_ok _ _ _ _ () (hrow.1 hb)]
        have : y ≠ i := fun e => hn (e ▸ hb j c)
        exact (ih (y + 1) (by omega)).2 ⟨i, j, by omega, by omega, c, hn⟩
      · push Not at hb
        obtain ⟨e, s', h⟩ := hrow.2 hb
        rw [bind_err _ _ _ _ _ h]
        exact ⟨_, _, rfl⟩

/-! ## Contrast parameters -/

/-- The properties of a grid without masks, apart from contrast parameters. -/
structure Bare (g : GridParams K) (s : Shallot K) : Prop where
  params : s.params = g
  diskRadius : s.diskRadius.name = .diskRadius ∧ s.diskRadius.unit = .eclipseDuration ∧
    s.diskRadius.params = g ∧ s.diskRadius.mask = none
  inclination : s.inclination.name = .inclination ∧ s.inclination.unit = .degree ∧
    s.inclination.params = g ∧ s.inclination.mask = none
  tilt : s.tilt.name = .tilt ∧ s.tilt.unit = .degree ∧ s.tilt.params = g ∧ s.tilt.mask = none
  fxMap : s.fxMap.name = .fxMap ∧ s.fxMap.unit = .none ∧ s.fxMap.params = g ∧ s.fxMap.mask = none
  fyMap : s.fyMap.name = .fyMap ∧ s.fyMap.unit = .none ∧ s.fyMap.params = g ∧ s.fyMap.mask = none
  nothing : s.diagnostics = none ∧ s.gradients = none ∧ s.gradientFit = none ∧
    s.eclipseDuration = none ∧ s.velocity = none ∧ s.limb = none

theorem recolor_fresh (p : GProp K) (name : PropName) (unit : PropUnit) (g : GridParams K) (c : String)
    (h : p.name = name ∧ p.unit = unit ∧ p.params = g ∧ p.mask = none) :
    Shallot.recolor c p = (.ok (), fresh name unit g p.data c) := by
  obtain ⟨rfl, rfl, rfl, h⟩ := h
  rw [recolor_eq]
  unfold fresh
  rw [← h]

/-- A build that has done all rows is complete. -/
theorem recolor_ahead (g : GridParams K) (s : Shallot K) (hs : Helped s) (hb : Bare g s) (m : Cube → ℕ) :
    ∃ dm, Shallot.recolorAll (aheadOf s m g.dy.data.length 0) =
      (.ok (), { builtGrid g s.numFxfy none with diagnosticMap := dm }) := by
  unfold Shallot.recolorAll
  obtain ⟨a, ha⟩ : ∃ a, a = aheadOf s m g.dy.data.length 0 := ⟨_, rfl⟩
  have b1 : a.diskRadius.name = .diskRadius ∧ a.diskRadius.unit = .eclipseDuration ∧
    a.diskRadius.params = g ∧ a.diskRadius.mask = none := by rw [ha]; exact hb.diskRadius
  have b2 : a.inclination.name = .inclination ∧ a.inclination.unit = .degree ∧
    a.inclination.params = g ∧ a.inclination.mask = none := by rw [ha]; exact hb.inclination
  have b3 : a.tilt.name = .tilt ∧ a.tilt.unit = .degree ∧ a.tilt.params = g ∧ a.tilt.mask = none := by
    rw [ha]; exact hb.tilt
  have b4 : a.fxMap.name = .fxMap ∧ a.fxMap.unit = .none ∧ a.fxMap.params = g ∧ a.fxMap.mask = none := by
    rw [ha]; exact hb.fxMap
  have b5 : a.fyMap.name = .fyMap ∧ a.fyMap.unit = .none ∧ a.fyMap.params = g ∧ a.fyMap.mask = none := by
    rw [ha]; exact hb.fyMap
  obtain ⟨n, hn⟩ : ∃ n, n = s.numFxfy.toInt.toNat := ⟨_, rfl⟩
  have c1 : a.diskRadius.data = built g n (·.diskRadius) := by
    rw [ha, hn, ← ahead_all _ _ (m .diskRadius), ← hb.params]; rfl
  have c2 : a.inclination.data = built g n (·.inclination) := by
    rw [ha, hn, ← ahead_all _ _ (m .inclination), ← hb.params]; rfl
  have c3 : a.tilt.data = built g n (·.tilt) := by
    rw [ha, hn, ← ahead_all _ _ (m .tilt), ← hb.params]; rfl
  have c4 : a.fxMap.data = built g n (·.fx) := by
    rw [ha, hn, ← ahead_all _ _ (m .fxMap), ← hb.params]; rfl
  have c5 : a.fyMap.data = built g n (·.fyValid) := by
    rw [ha, hn, ← ahead_all _ _ (m .fyMap), ← hb.params]; rfl
  obtain ⟨n1, n2, n3, n4, n5, n6⟩ : a.diagnostics = none ∧ a.gradients = none ∧ a.gradientFit = none ∧
    a.eclipseDuration = none ∧ a.velocity = none ∧ a.limb = none := by rw [ha]; exact hb.nothing
  have p1 : a.params = g ∧ a.numFxfy = s.numFxfy := by rw [ha]; exact ⟨hb.params, rfl⟩
  have p2 : a.circularRadius = g.dy.data.map Geometry.circularRadius := by
    rw [ha, ← hb.params]; exact hs.radius
  have p3 : a.shear = cubeOf g.dy.data.length g.dx.data.length 1 fun y x _ =>
      Geometry.shear (g.dx.data.getD x .nan) (g.dy.data.getD y .nan) := by
    rw [ha, ← hb.params]; exact hs.shear
  rw [← ha]
  clear ha
  rw [bind_ok _ _ _ _ () (onProp_ok .diskRadius _ _ _ _ _ rfl (recolor_fresh _ _ _ _ _ b1)),
    bind_ok _ _ _ _ () (onProp_ok .inclination _ _ _ _ _ rfl (recolor_fresh _ _ _ _ _ (by exact b2))),
    bind_ok _ _ _ _ () (onProp_ok .tilt _ _ _ _ _ rfl (recolor_fresh _ _ _ _ _ (by exact b3))),
    bind_ok _ _ _ _ () (onProp_ok .fxMap _ _ _ _ _ rfl (recolor_fresh _ _ _ _ _ (by exact b4))),
    bind_ok _ _ _ _ () (onProp_ok .fyMap _ _ _ _ _ rfl (recolor_fresh _ _ _ _ _ (by exact b5)))]
  obtain ⟨t, ht⟩ : ∃ t : Shallot K, t = { builtGrid g s.numFxfy none with
      diagnosticMap := a.diagnosticMap } := ⟨_, rfl⟩
  have hst : ((((a.setProp (fresh .diskRadius .eclipseDuration g a.diskRadius.data "viridis") .diskRadius).setProp
      (fresh .inclination .degree g a.inclination.data "viridis") .inclination).setProp
      (fresh .tilt .degree g a.tilt.data "twilight") .tilt).setProp
      (fresh .fxMap .none g a.fxMap.data "viridis") .fxMap).setProp
      (fresh .fyMap .none g a.fyMap.data "viridis") .fyMap = t := by
    rw [ht, c1, c2, c3, c4, c5]
    obtain ⟨a1, a2, a3, a4, a5, a6, a7, a8, a9, a10, a11, a12, a13, a14, a15, a16⟩ := a
    simp only at n1 n2 n3 n4 n5 n6 p1 p2 p3
    obtain ⟨p1, p1'⟩ := p1
    subst n1 n2 n3 n4 n5 n6 p1 p1' p2 p3
    rw [hn]
    rfl
  have hgr : ∀ d, (({ t with diagnosticMap := d } : Shallot K).gradients.getD []).length = 0 := by
    intro d; rw [ht]; rfl
  have key : ∃ dm, Shallot.recolorDiagnostic t = (.ok (), { t with diagnosticMap := dm }) := by
    unfold Shallot.recolorDiagnostic
    rw [Meth.get_bind]
    cases hd : t.diagnosticMap with
    | none =>
      refine ⟨none, ?_⟩
      show (Except.ok (), t) = _
      rw [← hd]
    | some p => exact ⟨_, onProp_ok .diagnosticMap _ _ _ _ _ hd (setContrast_default p)⟩
  obtain ⟨dm, hdm⟩ := key
  refine ⟨dm, ?_⟩
  refine (congrArg _ hst).trans ?_
  rw [bind_ok _ _ _ _ () hdm, Meth.get_bind, hgr]
  unfold Shallot.recolorGradients
  rw [ht]
  rfl

end
end Beyonce
