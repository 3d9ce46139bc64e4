import Verif.Props.Owned

/-!
# Invariants of grids, part by part

A condition on each property and on each gradient that the methods of properties and gradients keep is
kept by every sequence of calls on a grid.
-/

set_option linter.unusedSectionVars false

namespace Beyonce
open Spec

section
variable {K : Type} [Field K] [LinearOrder K] [IsStrictOrderedRing K]

/-- A condition on each property, `none` if the attribute is `None`, on each gradient, and on the
parameters and the shear, which no method changes. -/
structure Scheme (K : Type) where
  cube : Cube → Option (GProp K) → Prop
  grad : GGrad K → Prop
  frame : GridParams K → Nd K → Prop := fun _ _ => True

/-- All parts of the grid meet their conditions. -/
structure Scheme.Holds (S : Scheme K) (s : Shallot K) : Prop where
  props : ∀ c, S.cube c (s.prop c)
  gradients : ∀ l, s.gradients = some l → ∀ g ∈ l, S.grad g
  frame : S.frame s.params s.shear

/-- Whatever happens to the parts of a grid keeps the conditions. -/
structure Scheme.Closed [RealFns K] (S : Scheme K) : Prop where
  getData : ∀ v c p, S.cube c (some p) → S.cube c (some (GProp.getData v p).2)
  nanWhere : ∀ m c p, S.cube c (some p) → S.cube c (some (Shallot.nanWhere m p).2)
  eraseAt : ∀ i c p, S.cube c (some p) → S.cube c (some (Shallot.eraseAt i p).2)
  setMask : ∀ v c p, S.cube c (some p) → S.cube c (some (GProp.setMask v p).2)
  noFit : S.cube .gradientFit none
  newFit : ∀ d g p, GProp.new .gradientFit .none d g = .ok p → S.cube .gradientFit (some p)
  newMap : ∀ d g p, GProp.new .diagnosticMap .eclipseDuration d g = .ok p →
    S.cube .diagnosticMap (some p)
  gradGet : ∀ v g, S.grad g → S.grad { g with prop := (GProp.getData v g.prop).2 }
  gradMask : ∀ a b c d g, S.grad g → S.grad (GGrad.determineMask a b c d g).2
  gradNew : ∀ s x q, S.Holds s →
    GGrad.new (.arr ⟨"float64", (s.gradientCube x).shape, (s.gradientCube x).data⟩) s.params
      (.npFloat .w64 x) = .ok q → S.grad q

variable {S : Scheme K}

theorem holds_setProp {s : Shallot K} (hs : S.Holds s) (c : Cube) (p : GProp K)
    (hp : S.cube c (some p)) : S.Holds (s.setProp p c) := by
  refine ⟨?_, ?_, ?_⟩
  · intro c'
    rw [setProp_prop]
    split_ifs with hc
    · rw [hc]; exact hp
    · exact hs.props c'
  · rw [setProp_gradients]
    exact hs.gradients
  · cases c <;> exact hs.frame

theorem onProp_holds {α : Type} (c : Cube) (m : Meth (GProp K) α)
    (hm : ∀ c p, S.cube c (some p) → S.cube c (some (m p).2)) :
    Moves (Inv S.Holds) (Shallot.onProp c m) := by
  intro s hs
  unfold Shallot.onProp
  cases h : s.prop c with
  | none => exact hs
  | some p =>
    have hp := hs.props c
    rw [h] at hp
    exact holds_setProp hs c _ (hm c p hp)

theorem holds_getD {s : Shallot K} (hs : S.Holds s) : ∀ g ∈ s.gradients.getD [], S.grad g := by
  intro g hg
  cases h : s.gradients with
  | none => rw [h] at hg; cases hg
  | some l => rw [h] at hg; exact hs.gradients l h g hg

theorem onGradient_holds {α : Type} (k : ℕ) (m : Meth (GGrad K) α)
    (hm : ∀ g, S.grad g → S.grad (m g).2) :
    Moves (Inv S.Holds) (Shallot.onGradient k m) := by
  intro s hs
  unfold Shallot.onGradient
  cases h : (s.gradients.getD [])[k]? with
  | none => exact hs
  | some g =>
    refine ⟨hs.props, ?_, hs.frame⟩
    intro l hl g' hg'
    simp only [Option.some.injEq] at hl
    subst hl
    rcases List.mem_or_eq_of_mem_set hg' with h' | rfl
    · exact holds_getD hs _ h'
    · exact hm g (holds_getD hs g (List.mem_of_getElem? h))

variable [RealFns K] (SC : S.Closed)
include SC

local notation "SP" => (Inv.pre (S := Shallot K) S.Holds)

theorem getCube_holds (c : Cube) (v w : PyVal K) : Moves (Inv S.Holds) (Shallot.getCube c v w) := by
  unfold Shallot.getCube
  refine Moves.bind SP (onProp_holds c _ (SC.getData w)) fun d => ?_
  refine Moves.bind SP (Moves.lift SP _) fun b => ?_
  split_ifs
  · refine Moves.bind SP (Moves.get SP) fun s => ?_
    refine Moves.bind SP (Moves.lift SP _) fun m => ?_
    exact onProp_holds c _ (SC.nanWhere m)
  · exact Moves.pure SP d

theorem getGradientFit_holds (v w : PyVal K) : Moves (Inv S.Holds) (Shallot.getGradientFit v w) := by
  unfold Shallot.getGradientFit
  refine Moves.bind SP (Moves.get SP) fun s => ?_
  split_ifs
  · exact Moves.pure SP _
  · exact Moves.bind SP (getCube_holds SC _ _ _) fun d => Moves.pure SP _

theorem hillMask_holds (h : PyVal K) : Moves (Inv S.Holds) (Shallot.hillMask h) := by
  unfold Shallot.hillMask
  refine Moves.bind SP (Moves.lift SP _) fun x => ?_
  refine Moves.get_bind fun s hs => ?_
  exact holds_setProp hs .diskRadius _ (SC.setMask _ _ _ (hs.props .diskRadius))

theorem diagnose_holds : Moves (Inv S.Holds) (Shallot.diagnose (K := K)) := by
  unfold Shallot.diagnose
  refine Moves.get_bind fun s hs => ?_
  obtain ⟨values, hv⟩ : ∃ v, v = cubeOf s.params.gridShape.1 s.params.gridShape.2.1
    s.params.gridShape.2.2 fun y x r =>
    ((s.diskRadius.data.at3 y x r).div (s.diskRadius.data.at3 y x (s.params.rf.data.length - 1))).sub
      (s.params.rfArray.data.getD r .nan) := ⟨_, rfl⟩
  simp only [← hv]
  cases h : GProp.new .diagnosticMap .eclipseDuration
    (.arr ⟨"float64", values.shape, values.data⟩) s.params with
  | error e => exact hs
  | ok p =>
    exact holds_setProp hs .diagnosticMap p (SC.newMap _ _ _ h)

theorem noFit_holds {s : Shallot K} (hs : S.Holds s) : S.Holds { s with gradientFit := none } := by
  refine ⟨?_, hs.gradients, hs.frame⟩
  intro c
  cases c with
  | gradientFit => exact SC.noFit
  | diskRadius => exact hs.props .diskRadius
  | inclination => exact hs.props .inclination
  | tilt => exact hs.props .tilt
  | fxMap => exact hs.props .fxMap
  | fyMap => exact hs.props .fyMap
  | diagnosticMap => exact hs.props .diagnosticMap

theorem resetFit_holds : Moves (Inv S.Holds) (Shallot.resetFit (K := K)) := fun _ hs => noFit_holds SC hs

theorem setGradients_holds {s : Shallot K} (hs : S.Holds s) (l : Option (List (GGrad K)))
    (hl : ∀ l', l = some l' → ∀ g ∈ l',
      S.grad g) :
    S.Holds { s with gradients := l } := by
  refine ⟨?_, hl, hs.frame⟩
  intro c
  have h := hs.props c
  cases c <;> exact h

theorem removeLoop_holds (is : List ℤ) : Moves (Inv S.Holds) (Shallot.removeLoop (K := K) is) := by
  induction is with
  | nil => exact Moves.pure SP ()
  | cons i is ih =>
    unfold Shallot.removeLoop
    refine Moves.get_bind fun s hs => ?_
    by_cases hi : 0 ≤ i ∧ i < (s.gradients.getD []).length
    · rw [if_pos hi]
      refine Moves.bind SP (R := Inv S.Holds) ?_ (fun _ => ih) s hs
      intro _ _
      refine setGradients_holds SC hs _ ?_
      intro l' h g hg
      cases h
      exact holds_getD hs g (List.mem_of_mem_eraseIdx hg)
    · rw [if_neg hi]; exact hs

theorem removeGradients_holds [FloorRing K] (v : PyVal K) :
    Moves (Inv S.Holds) (Shallot.removeGradients v) := by
  unfold Shallot.removeGradients
  refine Moves.bind SP (Moves.get SP) fun s => ?_
  cases s.gradients with
  | none => exact Moves.pure SP ()
  | some l =>
    refine Moves.bind SP (Moves.lift SP _) fun a => ?_
    exact Moves.bind SP (removeLoop_holds SC _) fun _ => resetFit_holds SC

omit SC in
theorem holds_congr {s s' : Shallot K} (hs : S.Holds s)
    (h2 : ∀ c, s'.prop c = s.prop c) (h3 : s'.gradients = s.gradients)
    (h4 : s'.params = s.params) (h5 : s'.shear = s.shear) : S.Holds s' :=
  ⟨by intro c; rw [h2]; exact hs.props c, by rw [h3]; exact hs.gradients, by rw [h4, h5]; exact hs.frame⟩

theorem storeEclipse_holds (a b c : PyVal K) : Moves (Inv S.Holds) (Shallot.storeEclipse a b c) := by
  unfold Shallot.storeEclipse
  refine Moves.bind SP (Moves.lift SP _) fun d => ?_
  refine Moves.bind SP (Moves.modify fun s hs => holds_congr hs (by intro c; cases c <;> rfl) rfl rfl rfl)
    fun _ => ?_
  refine Moves.bind SP (Moves.lift SP _) fun d => ?_
  refine Moves.bind SP (Moves.modify fun s hs => holds_congr hs (by intro c; cases c <;> rfl) rfl rfl rfl)
    fun _ => ?_
  refine Moves.bind SP (Moves.lift SP _) fun d => ?_
  exact Moves.modify fun s hs => holds_congr hs (by intro c; cases c <;> rfl) rfl rfl rfl

theorem setEclipse_holds (a b c : PyVal K) :
    Moves (Inv S.Holds) (Shallot.setEclipseParameters a b c) := by
  unfold Shallot.setEclipseParameters
  refine Moves.bind SP (storeEclipse_holds SC a b c) fun _ => ?_
  refine Moves.bind SP (Moves.get SP) fun s => ?_
  cases s.gradients with
  | none => exact Moves.pure SP ()
  | some l =>
    refine Moves.bind SP (Moves.modify fun s hs => setGradients_holds SC hs none (by simp)) fun _ => ?_
    exact resetFit_holds SC

theorem determineFit_holds (w : Bool) : Moves (Inv S.Holds) (Shallot.determineFit (K := K) w) := by
  unfold Shallot.determineFit
  refine Moves.get_bind fun s hs => ?_
  cases hg : s.gradients with
  | none => exact hs
  | some gs =>
    obtain ⟨⟨a, b, c⟩, he⟩ : ∃ g, g = s.params.gridShape := ⟨_, rfl⟩
    simp only [← he]
    cases h1 : Shallot.fitLoop w gs (List.replicate (a * b * c) (.fin 0)) with
    | error e => exact hs
    | ok data =>
      rw [Meth.lift_ok_bind]
      cases h2 : GProp.new .gradientFit .none (.arr ⟨"float64", [a, b, c], data⟩) s.params with
      | error e => exact hs
      | ok p =>
        rw [Meth.lift_ok_bind, Meth.modify_bind]
        have hs' := holds_setProp hs .gradientFit p (SC.newFit _ _ _ h2)
        exact onProp_holds .gradientFit _ (SC.setMask _) _ hs'

theorem lookup_holds (c : Cube) (v : PyVal K) (y x r : ℤ) :
    Moves (Inv S.Holds) (Shallot.lookup c v y x r) :=
  Moves.bind SP (getCube_holds SC _ _ _) fun _ => Moves.lift SP _

theorem gradientValues_holds (v : PyVal K) (y x r : ℤ) : ∀ n k : ℕ,
    Moves (Inv S.Holds) (Shallot.gradientValues v y x r n k)
  | 0, k => Moves.pure SP _
  | n + 1, k => by
    unfold Shallot.gradientValues
    refine Moves.bind SP (Moves.get SP) fun s => ?_
    refine Moves.bind SP (onGradient_holds k _ ?_) fun d => ?_
    · exact SC.gradGet v
    refine Moves.bind SP (Moves.lift SP _) fun _ => ?_
    exact Moves.bind SP (gradientValues_holds v y x r n (k + 1)) fun _ => Moves.pure SP _

theorem gradientsAt_holds (v : PyVal K) (y x r : ℤ) :
    Moves (Inv S.Holds) (Shallot.gradientsAt v y x r) := by
  unfold Shallot.gradientsAt
  refine Moves.bind SP (Moves.get SP) fun s => ?_
  cases s.gradients with
  | none => exact Moves.pure SP _
  | some l => exact Moves.bind SP (gradientValues_holds SC _ _ _ _ _ _) fun _ => Moves.pure SP _

theorem gridPoint_holds (y x r v : PyVal K) : Moves (Inv S.Holds) (Shallot.gridPoint y x r v) := by
  unfold Shallot.gridPoint
  refine Moves.bind SP (Moves.get SP) fun s => ?_
  refine Moves.bind SP (Moves.lift SP _) fun _ => ?_
  refine Moves.bind SP (Moves.lift SP _) fun _ => ?_
  refine Moves.bind SP (Moves.lift SP _) fun _ => ?_
  refine Moves.bind SP (lookup_holds SC _ _ _ _ _) fun _ => ?_
  refine Moves.bind SP (lookup_holds SC _ _ _ _ _) fun _ => ?_
  refine Moves.bind SP (lookup_holds SC _ _ _ _ _) fun _ => ?_
  refine Moves.bind SP (Moves.lift SP _) fun _ => ?_
  refine Moves.bind SP (Moves.lift SP _) fun _ => ?_
  refine Moves.bind SP (Moves.lift SP _) fun _ => ?_
  refine Moves.bind SP (lookup_holds SC _ _ _ _ _) fun _ => ?_
  refine Moves.bind SP (lookup_holds SC _ _ _ _ _) fun _ => ?_
  refine Moves.bind SP (lookup_holds SC _ _ _ _ _) fun _ => ?_
  exact Moves.bind SP (gradientsAt_holds SC _ _ _ _) fun _ => Moves.pure SP _

theorem solution_holds : Moves (Inv S.Holds) (Shallot.solution (K := K)) := by
  unfold Shallot.solution
  refine Moves.bind SP (Moves.get SP) fun s => ?_
  cases s.gradientFit with
  | none => exact Moves.throw SP _
  | some fit =>
    refine Moves.bind SP (Moves.lift SP _) fun i => ?_
    refine Moves.bind SP (gridPoint_holds SC _ _ _ _) fun p => ?_
    exact Moves.bind SP (onProp_holds _ _ (SC.eraseAt i)) fun _ => Moves.pure SP _

theorem solutionLoop_holds : ∀ n : ℕ, Moves (Inv S.Holds) (Shallot.solutionLoop (K := K) n)
  | 0 => Moves.pure SP _
  | n + 1 => by
    unfold Shallot.solutionLoop
    refine Moves.bind SP (solution_holds SC) fun _ => ?_
    exact Moves.bind SP (solutionLoop_holds n) fun _ => Moves.pure SP _

theorem extractSolutions_holds (v : PyVal K) : Moves (Inv S.Holds) (Shallot.extractSolutions v) := by
  unfold Shallot.extractSolutions
  refine Moves.bind SP (Moves.get SP) fun s => ?_
  refine Moves.bind SP (Moves.lift SP _) fun _ => ?_
  refine Moves.bind SP (Moves.lift SP _) fun _ => ?_
  exact Moves.bind SP (getGradientFit_holds SC _ _) fun _ => solutionLoop_holds SC _

theorem appendGradients_holds : ∀ l : List (XF K), Moves (Inv S.Holds) (Shallot.appendGradients l)
  | [] => Moves.pure SP _
  | x :: l => by
    unfold Shallot.appendGradients
    refine Moves.get_bind fun s hs => ?_
    cases h : GGrad.new (.arr ⟨"float64", (s.gradientCube x).shape, (s.gradientCube x).data⟩) s.params
      (.npFloat .w64 x) with
    | error e => exact hs
    | ok g =>
      rw [Meth.lift_ok_bind]
      refine Moves.bind SP (R := Inv S.Holds) ?_ (fun _ => appendGradients_holds l) s hs
      intro _ _
      refine setGradients_holds SC hs _ ?_
      intro l' h' g' hg'
      cases h'
      rcases List.mem_append.1 hg' with hg' | hg'
      · exact holds_getD hs g' hg'
      · obtain rfl : g' = g := by simpa using hg'
        exact SC.gradNew s _ _ hs h

theorem determineDiskGradients_holds (a : NpArr K) :
    Moves (Inv S.Holds) (Shallot.determineDiskGradients a) := by
  unfold Shallot.determineDiskGradients
  refine Moves.bind SP (Moves.lift SP _) fun b => ?_
  refine Moves.bind SP (Moves.modify fun s hs => setGradients_holds SC hs _ ?_)
    fun _ => appendGradients_holds SC _
  intro l h g hg
  cases h
  exact holds_getD hs g hg

theorem onDetermineMask_holds (k : ℕ) (a b c d : PyVal K) :
    Moves (Inv S.Holds) (Shallot.onGradient k (GGrad.determineMask a b c d)) :=
  onGradient_holds k _ (SC.gradMask a b c d)

theorem measureLoop_holds (v : PyVal K) : ∀ (l : List (XF K × XF K × XF K)) (k : ℕ),
    Moves (Inv S.Holds) (Shallot.measureLoop v k l)
  | [], k => Moves.pure SP _
  | (m, e, w) :: l, k => by
    unfold Shallot.measureLoop
    refine Moves.bind SP (Moves.get SP) fun s => ?_
    split_ifs
    · exact Moves.bind SP (onDetermineMask_holds SC _ _ _ _ _) fun _ => measureLoop_holds v l (k + 1)
    · exact Moves.pure SP _

theorem setMeasured_holds (lc : NpArr K) (e w : PyVal K) :
    Moves (Inv S.Holds) (Shallot.setMeasured lc e w) := by
  unfold Shallot.setMeasured
  refine Moves.bind SP (Moves.lift SP _) fun _ => ?_
  refine Moves.bind SP (Moves.lift SP _) fun _ => ?_
  refine Moves.bind SP (Moves.lift SP _) fun _ => ?_
  refine Moves.bind SP (Moves.get SP) fun s => ?_
  refine Moves.bind SP (Moves.lift SP _) fun _ => ?_
  exact measureLoop_holds SC _ _ _

theorem addGradients_holds (a b c d : PyVal K) : Moves (Inv S.Holds) (Shallot.addGradients a b c d) := by
  unfold Shallot.addGradients
  refine Moves.bind SP (Moves.get SP) fun s => ?_
  split_ifs
  · refine Moves.bind SP (Moves.lift SP _) fun _ => ?_
    refine Moves.bind SP (Moves.lift SP _) fun _ => ?_
    refine Moves.bind SP (Moves.lift SP _) fun _ => ?_
    refine Moves.bind SP (Moves.lift SP _) fun _ => ?_
    refine Moves.bind SP (determineDiskGradients_holds SC _) fun _ => ?_
    exact Moves.bind SP (setMeasured_holds SC _ _ _) fun _ => resetFit_holds SC
  · exact Moves.pure SP _

theorem rescaleLoop_holds (u : Bool) (w : Option (List (XF K))) : ∀ n k : ℕ,
    Moves (Inv S.Holds) (Shallot.rescaleLoop u w n k)
  | 0, k => Moves.pure SP _
  | n + 1, k => by
    unfold Shallot.rescaleLoop
    refine Moves.bind SP (Moves.get SP) fun s => ?_
    cases (s.gradients.getD [])[k]? with
    | none => exact Moves.pure SP _
    | some g =>
      refine Moves.bind SP (Moves.lift SP _) fun _ => ?_
      exact Moves.bind SP (onDetermineMask_holds SC _ _ _ _ _) fun _ => rescaleLoop_holds u w n (k + 1)

theorem updateScaling_holds (a b c : PyVal K) : Moves (Inv S.Holds) (Shallot.updateScaling a b c) := by
  unfold Shallot.updateScaling
  refine Moves.bind SP (Moves.modify fun s hs => holds_congr hs (by intro c; cases c <;> rfl) rfl rfl rfl)
    fun _ => ?_
  refine Moves.bind SP (Moves.get SP) fun s => ?_
  refine Moves.bind SP (Moves.lift SP _) fun w => ?_
  split_ifs
  · exact Moves.pure SP _
  · cases s.gradients with
    | none => exact Moves.throw SP _
    | some l => exact Moves.bind SP (rescaleLoop_holds SC _ _ _ _) fun _ => resetFit_holds SC

theorem gradientLoop_holds (m : Mask) (v : PyVal K) : ∀ n k : ℕ,
    Moves (Inv S.Holds) (Shallot.gradientLoop m v n k)
  | 0, k => Moves.pure SP _
  | n + 1, k => by
    unfold Shallot.gradientLoop
    refine Moves.bind SP (Moves.get SP) fun s => ?_
    cases (s.gradients.getD [])[k]? with
    | none => exact Moves.pure SP _
    | some g =>
      refine Moves.bind SP (Moves.lift SP _) fun _ => ?_
      refine Moves.bind SP (onGradient_holds k _ ?_) fun d => ?_
      · exact SC.gradGet v
      exact Moves.bind SP (gradientLoop_holds m v n (k + 1)) fun _ => Moves.pure SP _

theorem getGradients_holds (a b : PyVal K) : Moves (Inv S.Holds) (Shallot.getGradients a b) := by
  unfold Shallot.getGradients
  refine Moves.bind SP (Moves.get SP) fun s => ?_
  cases s.gradients with
  | none => exact Moves.throw SP _
  | some l =>
    refine Moves.bind SP (Moves.lift SP _) fun _ => ?_
    refine Moves.bind SP (Moves.lift SP _) fun _ => ?_
    exact gradientLoop_holds SC _ _ _ _

theorem closestPoint_holds (a b c d e : PyVal K) :
    Moves (Inv S.Holds) (Shallot.closestPoint a b c d e) := by
  unfold Shallot.closestPoint
  refine Moves.bind SP (Moves.lift SP _) fun _ => ?_
  refine Moves.bind SP (Moves.lift SP _) fun _ => ?_
  refine Moves.bind SP (Moves.lift SP _) fun _ => ?_
  refine Moves.bind SP (Moves.lift SP _) fun _ => ?_
  refine Moves.bind SP (Moves.lift SP _) fun _ => ?_
  refine Moves.bind SP (getCube_holds SC _ _ _) fun _ => ?_
  refine Moves.bind SP (getCube_holds SC _ _ _) fun _ => ?_
  refine Moves.bind SP (getCube_holds SC _ _ _) fun _ => ?_
  exact Moves.bind SP (Moves.get SP) fun _ => Moves.lift SP _

variable [FloorRing K]

theorem exec_holds (op : GridOp K) (s : Shallot K) (hs : S.Holds s) : S.Holds (op.exec s) := by
  cases op with
  | get c v w => exact getCube_holds SC c v w s hs
  | getFit v w => exact getGradientFit_holds SC v w s hs
  | getGradients v w => exact getGradients_holds SC v w s hs
  | point y x r v => exact gridPoint_holds SC y x r v s hs
  | closest a b c d v => exact closestPoint_holds SC a b c d v s hs
  | hill h => exact hillMask_holds SC h s hs
  | diagnose => exact diagnose_holds SC s hs
  | add a b c d => exact addGradients_holds SC a b c d s hs
  | remove v => exact removeGradients_holds SC v s hs
  | eclipse a b c => exact setEclipse_holds SC a b c s hs
  | update a b c => exact updateScaling_holds SC a b c s hs
  | fit w => exact determineFit_holds SC w s hs
  | extract n => exact extractSolutions_holds SC n s hs

/-- Whatever is called in whatever order, the conditions stay met. -/
theorem runGrid_holds (ops : List (GridOp K)) (s : Shallot K) (hs : S.Holds s) :
    S.Holds (runGrid ops s) := by
  induction ops generalizing s with
  | nil => exact hs
  | cons op ops ih => exact ih _ (exec_holds SC op s hs)

end
end Beyonce
