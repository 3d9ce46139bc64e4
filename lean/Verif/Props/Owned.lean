import Verif.Props.Sound

/-!
# Every method keeps the parts of a grid together
-/

set_option linter.unusedSectionVars false

namespace Beyonce
open Spec

section
variable {K : Type} [Field K] [LinearOrder K] [IsStrictOrderedRing K]

/-- The name of a property. -/
def Spec.nameOf : Cube → PropName
  | .diskRadius => .diskRadius
  | .inclination => .inclination
  | .tilt => .tilt
  | .fxMap => .fxMap
  | .fyMap => .fyMap
  | .diagnosticMap => .diagnosticMap
  | .gradientFit => .gradientFit

/-- The unit of a property. -/
def Spec.unitOf : Cube → PropUnit
  | .diskRadius => .eclipseDuration
  | .inclination => .degree
  | .tilt => .degree
  | .fxMap => .none
  | .fyMap => .none
  | .diagnosticMap => .eclipseDuration
  | .gradientFit => .none

/-- The property has the label of its place in a grid with these parameters. -/
def Spec.LabelOf (g : GridParams K) (c : Cube) (p : GProp K) : Prop :=
  p.params = g ∧ p.name = nameOf c ∧ p.unit = unitOf c

/-- Parameters, number of samples and diagnostics are those of `t`, and the properties belong to the
grid. -/
structure Spec.Owned (t s : Shallot K) : Prop where
  params : s.params = t.params
  numFxfy : s.numFxfy = t.numFxfy
  diagnostics : s.diagnostics = t.diagnostics
  props : ∀ c p, s.prop c = some p → LabelOf t.params c p
  gradients : ∀ l, s.gradients = some l → ∀ g ∈ l, g.prop.params = t.params

/-- A method that keeps the label. -/
def LabelKeeping {α : Type} (m : Meth (GProp K) α) : Prop :=
  ∀ p, (m p).2.params = p.params ∧ (m p).2.name = p.name ∧ (m p).2.unit = p.unit

variable {t : Shallot K}

theorem owned_setProp {s : Shallot K} (hs : Owned t s) (c : Cube) (p : GProp K)
    (hp : LabelOf t.params c p) : Owned t (s.setProp p c) := by
  refine ⟨by rw [setProp_params]; exact hs.params, ?_, ?_, ?_, ?_⟩
  · cases c <;> exact hs.numFxfy
  · cases c <;> exact hs.diagnostics
  · intro c' p' h
    rw [setProp_prop] at h
    split_ifs at h with hc
    · cases h; rw [hc]; exact hp
    · exact hs.props c' p' h
  · rw [setProp_gradients]
    exact hs.gradients

theorem onProp_owned {α : Type} (c : Cube) (m : Meth (GProp K) α) (hm : LabelKeeping m) :
    Moves (Inv (Owned t)) (Shallot.onProp c m) := by
  intro s hs
  unfold Shallot.onProp
  cases h : s.prop c with
  | none => exact hs
  | some p =>
    have hp := hs.props c p h
    refine owned_setProp hs c _ ⟨?_, ?_, ?_⟩
    · rw [(hm p).1]; exact hp.1
    · rw [(hm p).2.1]; exact hp.2.1
    · rw [(hm p).2.2]; exact hp.2.2

theorem owned_getD {s : Shallot K} (hs : Owned t s) : ∀ g ∈ s.gradients.getD [],
    g.prop.params = t.params := by
  intro g hg
  cases h : s.gradients with
  | none => rw [h] at hg; cases hg
  | some l => rw [h] at hg; exact hs.gradients l h g hg

theorem onGradient_owned {α : Type} (k : ℕ) (m : Meth (GGrad K) α)
    (hm : ∀ g, (m g).2.prop.params = g.prop.params) :
    Moves (Inv (Owned t)) (Shallot.onGradient k m) := by
  intro s hs
  unfold Shallot.onGradient
  cases h : (s.gradients.getD [])[k]? with
  | none => exact hs
  | some g =>
    refine ⟨hs.params, hs.numFxfy, hs.diagnostics, hs.props, ?_⟩
    intro l hl g' hg'
    simp only [Option.some.injEq] at hl
    subst hl
    rcases List.mem_or_eq_of_mem_set hg' with h' | rfl
    · exact owned_getD hs _ h'
    · rw [hm]
      exact owned_getD hs g (List.mem_of_getElem? h)

theorem getData_label (v : PyVal K) : LabelKeeping (GProp.getData v) := by
  intro p
  rcases getData_cases v p with ⟨m, -, -, -, h⟩ | h
  · rw [h]; exact ⟨rfl, rfl, rfl⟩
  · rw [h]; exact ⟨rfl, rfl, rfl⟩

theorem nanWhere_label (m : Mask) : LabelKeeping (Shallot.nanWhere (K := K) m) := by
  intro p
  unfold Shallot.nanWhere
  rw [Meth.get_bind]
  split_ifs
  · exact ⟨rfl, rfl, rfl⟩
  · exact ⟨rfl, rfl, rfl⟩

theorem eraseAt_label (i : ℕ) : LabelKeeping (Shallot.eraseAt (K := K) i) :=
  fun _ => ⟨rfl, rfl, rfl⟩

theorem setMask_label (v : PyVal K) : LabelKeeping (GProp.setMask v) := by
  intro p
  rcases setMask_cases v p with ⟨a', h1, -, -, h⟩ | ⟨⟨e, h⟩, -⟩
  · rw [h]; exact ⟨rfl, rfl, rfl⟩
  · rw [h]; exact ⟨rfl, rfl, rfl⟩

theorem determineMask_label (vm vo vt ve : PyVal K) (g : GGrad K) :
    (GGrad.determineMask vm vo vt ve g).2.prop.params = g.prop.params := by
  rcases determineMask_cases vm vo vt ve g with ⟨-, e, h⟩ | ⟨-, -, e, h⟩ | ⟨-, -, -, e, h⟩ |
    ⟨-, -, -, -, e, h⟩ | ⟨-, -, -, -, ⟨e, -, h⟩ | ⟨q, -, ⟨-, h⟩ | ⟨-, h⟩⟩⟩ <;> rw [h] <;> rfl

theorem label_new {name : PropName} {unit : PropUnit} {d : PyVal K} {g : GridParams K} {p : GProp K}
    (h : GProp.new name unit d g = .ok p) : p.params = g ∧ p.name = name ∧ p.unit = unit := by
  obtain ⟨a, -, -, -, rfl⟩ := (prop_new_ok_iff _ _ _ _ _).1 h
  exact ⟨rfl, rfl, rfl⟩

local notation "SP" => (Inv.pre (S := Shallot K) (Owned t))

theorem getCube_owned (c : Cube) (v w : PyVal K) : Moves (Inv (Owned t)) (Shallot.getCube c v w) := by
  unfold Shallot.getCube
  refine Moves.bind SP (onProp_owned c _ (getData_label w)) fun d => ?_
  refine Moves.bind SP (Moves.lift SP _) fun b => ?_
  split_ifs
  · refine Moves.bind SP (Moves.get SP) fun s => ?_
    refine Moves.bind SP (Moves.lift SP _) fun m => ?_
    exact onProp_owned c _ (nanWhere_label m)
  · exact Moves.pure SP d

theorem getGradientFit_owned (v w : PyVal K) : Moves (Inv (Owned t)) (Shallot.getGradientFit v w) := by
  unfold Shallot.getGradientFit
  refine Moves.bind SP (Moves.get SP) fun s => ?_
  split_ifs
  · exact Moves.pure SP _
  · exact Moves.bind SP (getCube_owned _ _ _) fun d => Moves.pure SP _

theorem hillMask_owned (h : PyVal K) : Moves (Inv (Owned t)) (Shallot.hillMask h) := by
  unfold Shallot.hillMask
  refine Moves.bind SP (Moves.lift SP _) fun x => ?_
  refine Moves.get_bind fun s hs => ?_
  have hl := hs.props .diskRadius _ rfl
  have hk := setMask_label (.arr ⟨"bool", s.diskRadius.data.shape, s.diskRadius.data.data.map
    (fun y => .fin (if Shallot.hillAt x.num y then 1 else 0))⟩) s.diskRadius
  exact owned_setProp hs .diskRadius _ ⟨hk.1.trans hl.1, hk.2.1.trans hl.2.1, hk.2.2.trans hl.2.2⟩

theorem diagnose_owned : Moves (Inv (Owned t)) (Shallot.diagnose (K := K)) := by
  unfold Shallot.diagnose
  refine Moves.get_bind fun s hs => ?_
  obtain ⟨values, hv⟩ : ∃ v, v = cubeOf s.params.gridShape.1 s.params.gridShape.2.1
    s.params.gridShape.2.2 fun y x r =>
    ((s.diskRadius.data.at3 y x r).div (s.diskRadius.data.at3 y x (s.params.rf.data.length - 1))).sub
      (s.params.rfArray.data.getD r .nan) := ⟨_, rfl⟩
  simp only [← hv]
  cases h : GProp.new .diagnosticMap .eclipseDuration
    (.arr ⟨"float64", values.shape, values.data⟩) s.params with
  | error e => exact hs
  | ok p =>
    have hl := label_new h
    exact owned_setProp hs .diagnosticMap p ⟨hl.1.trans hs.params, hl.2.1, hl.2.2⟩

theorem noFit_owned {s : Shallot K} (hs : Owned t s) : Owned t { s with gradientFit := none } := by
  refine ⟨hs.params, hs.numFxfy, hs.diagnostics, ?_, hs.gradients⟩
  intro c p h
  cases c with
  | gradientFit => cases h
  | diskRadius => exact hs.props .diskRadius p h
  | inclination => exact hs.props .inclination p h
  | tilt => exact hs.props .tilt p h
  | fxMap => exact hs.props .fxMap p h
  | fyMap => exact hs.props .fyMap p h
  | diagnosticMap => exact hs.props .diagnosticMap p h

theorem resetFit_owned : Moves (Inv (Owned t)) (Shallot.resetFit (K := K)) := fun _ hs => noFit_owned hs

theorem setGradients_owned {s : Shallot K} (hs : Owned t s) (l : Option (List (GGrad K)))
    (hl : ∀ l', l = some l' → ∀ g ∈ l',
      g.prop.params = t.params) :
    Owned t { s with gradients := l } := by
  refine ⟨hs.params, hs.numFxfy, hs.diagnostics, ?_, hl⟩
  intro c p h
  exact hs.props c p (by cases c <;> exact h)

theorem removeLoop_owned (is : List ℤ) : Moves (Inv (Owned t)) (Shallot.removeLoop (K := K) is) := by
  induction is with
  | nil => exact Moves.pure SP ()
  | cons i is ih =>
    unfold Shallot.removeLoop
    refine Moves.get_bind fun s hs => ?_
    by_cases hi : 0 ≤ i ∧ i < (s.gradients.getD []).length
    · rw [if_pos hi]
      refine Moves.bind SP (R := Inv (Owned t)) ?_ (fun _ => ih) s hs
      intro _ _
      refine setGradients_owned hs _ ?_
      intro l' h g hg
      cases h
      exact owned_getD hs g (List.mem_of_mem_eraseIdx hg)
    · rw [if_neg hi]; exact hs

theorem removeGradients_owned [FloorRing K] (v : PyVal K) :
    Moves (Inv (Owned t)) (Shallot.removeGradients v) := by
  unfold Shallot.removeGradients
  refine Moves.bind SP (Moves.get SP) fun s => ?_
  cases s.gradients with
  | none => exact Moves.pure SP ()
  | some l =>
    refine Moves.bind SP (Moves.lift SP _) fun a => ?_
    exact Moves.bind SP (removeLoop_owned _) fun _ => resetFit_owned

theorem owned_congr {s s' : Shallot K} (hs : Owned t s) (h1 : s'.params = s.params)
    (h4 : s'.numFxfy = s.numFxfy) (h5 : s'.diagnostics = s.diagnostics)
    (h2 : ∀ c, s'.prop c = s.prop c) (h3 : s'.gradients = s.gradients) : Owned t s' :=
  ⟨h1.trans hs.params, h4.trans hs.numFxfy, h5.trans hs.diagnostics,
    by intro c p; rw [h2]; exact hs.props c p, by rw [h3]; exact hs.gradients⟩

theorem storeEclipse_owned (a b c : PyVal K) : Moves (Inv (Owned t)) (Shallot.storeEclipse a b c) := by
  unfold Shallot.storeEclipse
  refine Moves.bind SP (Moves.lift SP _) fun d => ?_
  refine Moves.bind SP (Moves.modify fun s hs => owned_congr hs rfl rfl rfl (by intro c; cases c <;> rfl) rfl)
    fun _ => ?_
  refine Moves.bind SP (Moves.lift SP _) fun d => ?_
  refine Moves.bind SP (Moves.modify fun s hs => owned_congr hs rfl rfl rfl (by intro c; cases c <;> rfl) rfl)
    fun _ => ?_
  refine Moves.bind SP (Moves.lift SP _) fun d => ?_
  exact Moves.modify fun s hs => owned_congr hs rfl rfl rfl (by intro c; cases c <;> rfl) rfl

theorem setEclipse_owned (a b c : PyVal K) :
    Moves (Inv (Owned t)) (Shallot.setEclipseParameters a b c) := by
  unfold Shallot.setEclipseParameters
  refine Moves.bind SP (storeEclipse_owned a b c) fun _ => ?_
  refine Moves.bind SP (Moves.get SP) fun s => ?_
  cases s.gradients with
  | none => exact Moves.pure SP ()
  | some l =>
    refine Moves.bind SP (Moves.modify fun s hs => setGradients_owned hs none (by simp)) fun _ => ?_
    exact resetFit_owned

theorem determineFit_owned (w : Bool) : Moves (Inv (Owned t)) (Shallot.determineFit (K := K) w) := by
  unfold Shallot.determineFit
  refine Moves.get_bind fun s hs => ?_
  cases hg : s.gradients with
  | none => exact hs
  | some gs =>
    obtain ⟨⟨a, b, c⟩, he⟩ : ∃ g, g = s.params.gridShape := ⟨_, rfl⟩
    simp only [← he]
    cases h1 : Shallot.fitLoop w gs (List.replicate (a * b * c) (.fin 0)) with
    | error e => exact hs
    | ok data =>
      rw [Meth.lift_ok_bind]
      cases h2 : GProp.new .gradientFit .none (.arr ⟨"float64", [a, b, c], data⟩) s.params with
      | error e => exact hs
      | ok p =>
        rw [Meth.lift_ok_bind, Meth.modify_bind]
        have hp := label_new h2
        have hl : LabelOf t.params .gradientFit p := ⟨hp.1.trans hs.params, hp.2.1, hp.2.2⟩
        have hs' := owned_setProp hs .gradientFit p hl
        exact onProp_owned .gradientFit _ (setMask_label _) _ hs'

theorem lookup_owned (c : Cube) (v : PyVal K) (y x r : ℤ) :
    Moves (Inv (Owned t)) (Shallot.lookup c v y x r) :=
  Moves.bind SP (getCube_owned _ _ _) fun _ => Moves.lift SP _

theorem gradientValues_owned (v : PyVal K) (y x r : ℤ) : ∀ n k : ℕ,
    Moves (Inv (Owned t)) (Shallot.gradientValues v y x r n k)
  | 0, k => Moves.pure SP _
  | n + 1, k => by
    unfold Shallot.gradientValues
    refine Moves.bind SP (Moves.get SP) fun s => ?_
    refine Moves.bind SP (onGradient_owned k _ ?_) fun d => ?_
    · intro g
      exact (getData_label v g.prop).1
    refine Moves.bind SP (Moves.lift SP _) fun _ => ?_
    exact Moves.bind SP (gradientValues_owned v y x r n (k + 1)) fun _ => Moves.pure SP _

theorem gradientsAt_owned (v : PyVal K) (y x r : ℤ) :
    Moves (Inv (Owned t)) (Shallot.gradientsAt v y x r) := by
  unfold Shallot.gradientsAt
  refine Moves.bind SP (Moves.get SP) fun s => ?_
  cases s.gradients with
  | none => exact Moves.pure SP _
  | some l => exact Moves.bind SP (gradientValues_owned _ _ _ _ _ _) fun _ => Moves.pure SP _

theorem gridPoint_owned (y x r v : PyVal K) : Moves (Inv (Owned t)) (Shallot.gridPoint y x r v) := by
  unfold Shallot.gridPoint
  refine Moves.bind SP (Moves.get SP) fun s => ?_
  refine Moves.bind SP (Moves.lift SP _) fun _ => ?_
  refine Moves.bind SP (Moves.lift SP _) fun _ => ?_
  refine Moves.bind SP (Moves.lift SP _) fun _ => ?_
  refine Moves.bind SP (lookup_owned _ _ _ _ _) fun _ => ?_
  refine Moves.bind SP (lookup_owned _ _ _ _ _) fun _ => ?_
  refine Moves.bind SP (lookup_owned _ _ _ _ _) fun _ => ?_
  refine Moves.bind SP (Moves.lift SP _) fun _ => ?_
  refine Moves.bind SP (Moves.lift SP _) fun _ => ?_
  refine Moves.bind SP (Moves.lift SP _) fun _ => ?_
  refine Moves.bind SP (lookup_owned _ _ _ _ _) fun _ => ?_
  refine Moves.bind SP (lookup_owned _ _ _ _ _) fun _ => ?_
  refine Moves.bind SP (lookup_owned _ _ _ _ _) fun _ => ?_
  exact Moves.bind SP (gradientsAt_owned _ _ _ _) fun _ => Moves.pure SP _

theorem solution_owned : Moves (Inv (Owned t)) (Shallot.solution (K := K)) := by
  unfold Shallot.solution
  refine Moves.bind SP (Moves.get SP) fun s => ?_
  cases s.gradientFit with
  | none => exact Moves.throw SP _
  | some fit =>
    refine Moves.bind SP (Moves.lift SP _) fun i => ?_
    refine Moves.bind SP (gridPoint_owned _ _ _ _) fun p => ?_
    exact Moves.bind SP (onProp_owned _ _ (eraseAt_label i)) fun _ => Moves.pure SP _

theorem solutionLoop_owned : ∀ n : ℕ, Moves (Inv (Owned t)) (Shallot.solutionLoop (K := K) n)
  | 0 => Moves.pure SP _
  | n + 1 => by
    unfold Shallot.solutionLoop
    refine Moves.bind SP solution_owned fun _ => ?_
    exact Moves.bind SP (solutionLoop_owned n) fun _ => Moves.pure SP _

theorem extractSolutions_owned (v : PyVal K) : Moves (Inv (Owned t)) (Shallot.extractSolutions v) := by
  unfold Shallot.extractSolutions
  refine Moves.bind SP (Moves.get SP) fun s => ?_
  refine Moves.bind SP (Moves.lift SP _) fun _ => ?_
  refine Moves.bind SP (Moves.lift SP _) fun _ => ?_
  exact Moves.bind SP (getGradientFit_owned _ _) fun _ => solutionLoop_owned _

variable [RealFns K]

theorem appendGradients_owned : ∀ l : List (XF K), Moves (Inv (Owned t)) (Shallot.appendGradients l)
  | [] => Moves.pure SP _
  | x :: l => by
    unfold Shallot.appendGradients
    refine Moves.get_bind fun s hs => ?_
    cases h : GGrad.new (.arr ⟨"float64", (s.gradientCube x).shape, (s.gradientCube x).data⟩) s.params
      (.npFloat .w64 x) with
    | error e => exact hs
    | ok g =>
      rw [Meth.lift_ok_bind]
      refine Moves.bind SP (R := Inv (Owned t)) ?_ (fun _ => appendGradients_owned l) s hs
      intro _ _
      refine setGradients_owned hs _ ?_
      intro l' h' g' hg'
      cases h'
      rcases List.mem_append.1 hg' with hg' | hg'
      · exact owned_getD hs g' hg'
      · obtain rfl : g' = g := by simpa using hg'
        unfold GGrad.new at h
        cases h1 : GProp.new .gradient .none (.arr ⟨"float64", (s.gradientCube x).shape,
          (s.gradientCube x).data⟩) s.params with
        | error e => rw [h1, error_bind] at h; cases h
        | ok p =>
          rw [h1, ok_bind] at h
          cases h2 : number (.npFloat .w64 x : PyVal K) with
          | error e => rw [h2, error_bind] at h; cases h
          | ok y =>
            rw [h2, ok_bind] at h
            cases h
            exact (label_new h1).1.trans hs.params

theorem determineDiskGradients_owned (a : NpArr K) :
    Moves (Inv (Owned t)) (Shallot.determineDiskGradients a) := by
  unfold Shallot.determineDiskGradients
  refine Moves.bind SP (Moves.lift SP _) fun b => ?_
  refine Moves.bind SP (Moves.modify fun s hs => setGradients_owned hs _ ?_)
    fun _ => appendGradients_owned _
  intro l h g hg
  cases h
  exact owned_getD hs g hg

theorem onDetermineMask_owned (k : ℕ) (a b c d : PyVal K) :
    Moves (Inv (Owned t)) (Shallot.onGradient k (GGrad.determineMask a b c d)) :=
  onGradient_owned k _ fun g => determineMask_label _ _ _ _ g

theorem measureLoop_owned (v : PyVal K) : ∀ (l : List (XF K × XF K × XF K)) (k : ℕ),
    Moves (Inv (Owned t)) (Shallot.measureLoop v k l)
  | [], k => Moves.pure SP _
  | (m, e, w) :: l, k => by
    unfold Shallot.measureLoop
    refine Moves.bind SP (Moves.get SP) fun s => ?_
    split_ifs
    · exact Moves.bind SP (onDetermineMask_owned _ _ _ _ _) fun _ => measureLoop_owned v l (k + 1)
    · exact Moves.pure SP _

theorem setMeasured_owned (lc : NpArr K) (e w : PyVal K) :
    Moves (Inv (Owned t)) (Shallot.setMeasured lc e w) := by
  unfold Shallot.setMeasured
  refine Moves.bind SP (Moves.lift SP _) fun _ => ?_
  refine Moves.bind SP (Moves.lift SP _) fun _ => ?_
  refine Moves.bind SP (Moves.lift SP _) fun _ => ?_
  refine Moves.bind SP (Moves.get SP) fun s => ?_
  refine Moves.bind SP (Moves.lift SP _) fun _ => ?_
  exact measureLoop_owned _ _ _

theorem addGradients_owned (a b c d : PyVal K) : Moves (Inv (Owned t)) (Shallot.addGradients a b c d) := by
  unfold Shallot.addGradients
  refine Moves.bind SP (Moves.get SP) fun s => ?_
  split_ifs
  · refine Moves.bind SP (Moves.lift SP _) fun _ => ?_
    refine Moves.bind SP (Moves.lift SP _) fun _ => ?_
    refine Moves.bind SP (Moves.lift SP _) fun _ => ?_
    refine Moves.bind SP (Moves.lift SP _) fun _ => ?_
    refine Moves.bind SP (determineDiskGradients_owned _) fun _ => ?_
    exact Moves.bind SP (setMeasured_owned _ _ _) fun _ => resetFit_owned
  · exact Moves.pure SP _

theorem rescaleLoop_owned (u : Bool) (w : Option (List (XF K))) : ∀ n k : ℕ,
    Moves (Inv (Owned t)) (Shallot.rescaleLoop u w n k)
  | 0, k => Moves.pure SP _
  | n + 1, k => by
    unfold Shallot.rescaleLoop
    refine Moves.bind SP (Moves.get SP) fun s => ?_
    cases (s.gradients.getD [])[k]? with
    | none => exact Moves.pure SP _
    | some g =>
      refine Moves.bind SP (Moves.lift SP _) fun _ => ?_
      exact Moves.bind SP (onDetermineMask_owned _ _ _ _ _) fun _ => rescaleLoop_owned u w n (k + 1)

theorem updateScaling_owned (a b c : PyVal K) : Moves (Inv (Owned t)) (Shallot.updateScaling a b c) := by
  unfold Shallot.updateScaling
  refine Moves.bind SP (Moves.modify fun s hs => owned_congr hs rfl rfl rfl (by intro c; cases c <;> rfl) rfl)
    fun _ => ?_
  refine Moves.bind SP (Moves.get SP) fun s => ?_
  refine Moves.bind SP (Moves.lift SP _) fun w => ?_
  split_ifs
  · exact Moves.pure SP _
  · cases s.gradients with
    | none => exact Moves.throw SP _
    | some l => exact Moves.bind SP (rescaleLoop_owned _ _ _ _) fun _ => resetFit_owned

theorem gradientLoop_owned (m : Mask) (v : PyVal K) : ∀ n k : ℕ,
    Moves (Inv (Owned t)) (Shallot.gradientLoop m v n k)
  | 0, k => Moves.pure SP _
  | n + 1, k => by
    unfold Shallot.gradientLoop
    refine Moves.bind SP (Moves.get SP) fun s => ?_
    cases (s.gradients.getD [])[k]? with
    | none => exact Moves.pure SP _
    | some g =>
      refine Moves.bind SP (Moves.lift SP _) fun _ => ?_
      refine Moves.bind SP (onGradient_owned k _ ?_) fun d => ?_
      · intro g
        exact (getData_label v g.prop).1
      exact Moves.bind SP (gradientLoop_owned m v n (k + 1)) fun _ => Moves.pure SP _

theorem getGradients_owned (a b : PyVal K) : Moves (Inv (Owned t)) (Shallot.getGradients a b) := by
  unfold Shallot.getGradients
  refine Moves.bind SP (Moves.get SP) fun s => ?_
  cases s.gradients with
  | none => exact Moves.throw SP _
  | some l =>
    refine Moves.bind SP (Moves.lift SP _) fun _ => ?_
    refine Moves.bind SP (Moves.lift SP _) fun _ => ?_
    exact gradientLoop_owned _ _ _ _

theorem closestPoint_owned (a b c d e : PyVal K) :
    Moves (Inv (Owned t)) (Shallot.closestPoint a b c d e) := by
  unfold Shallot.closestPoint
  refine Moves.bind SP (Moves.lift SP _) fun _ => ?_
  refine Moves.bind SP (Moves.lift SP _) fun _ => ?_
  refine Moves.bind SP (Moves.lift SP _) fun _ => ?_
  refine Moves.bind SP (Moves.lift SP _) fun _ => ?_
  refine Moves.bind SP (Moves.lift SP _) fun _ => ?_
  refine Moves.bind SP (getCube_owned _ _ _) fun _ => ?_
  refine Moves.bind SP (getCube_owned _ _ _) fun _ => ?_
  refine Moves.bind SP (getCube_owned _ _ _) fun _ => ?_
  exact Moves.bind SP (Moves.get SP) fun _ => Moves.lift SP _

variable [FloorRing K]

theorem exec_owned (op : GridOp K) (s : Shallot K) (hs : Owned t s) : Owned t (op.exec s) := by
  cases op with
  | get c v w => exact getCube_owned c v w s hs
  | getFit v w => exact getGradientFit_owned v w s hs
  | getGradients v w => exact getGradients_owned v w s hs
  | point y x r v => exact gridPoint_owned y x r v s hs
  | closest a b c d v => exact closestPoint_owned a b c d v s hs
  | hill h => exact hillMask_owned h s hs
  | diagnose => exact diagnose_owned s hs
  | add a b c d => exact addGradients_owned a b c d s hs
  | remove v => exact removeGradients_owned v s hs
  | eclipse a b c => exact setEclipse_owned a b c s hs
  | update a b c => exact updateScaling_owned a b c s hs
  | fit w => exact determineFit_owned w s hs
  | extract n => exact extractSolutions_owned n s hs

/-- Whatever is called in whatever order, the parts of the grid belong together. -/
theorem runGrid_owned (ops : List (GridOp K)) (s : Shallot K) (hs : Owned t s) :
    Owned t (runGrid ops s) := by
  induction ops generalizing s with
  | nil => exact hs
  | cons op ops ih => exact ih _ (exec_owned op s hs)

end
end Beyonce
