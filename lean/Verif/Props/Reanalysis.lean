import Verif.Props.Explained

/-!
# A grid can be analysed again

A grid takes long to make; the notebook analyses the same grid with one set of parameters after the
other.  `set_eclipse_parameters` is meant to start over.
-/

set_option linter.unusedSectionVars false

namespace Beyonce
open Spec Geometry

section
variable {K : Type} [Field K] [LinearOrder K] [IsStrictOrderedRing K] [RealFns K]

/-- The two grids differ at most in the gradients, the fit and the three parameters of the eclipse. -/
def Spec.SameDisks (t s : Shallot K) : Prop :=
  s = { t with
    gradients := s.gradients, gradientFit := s.gradientFit, eclipseDuration := s.eclipseDuration
    velocity := s.velocity, limb := s.limb }

/-- No attribute but the gradients and the fit is masked, and the diagnostic map is that of the disks. -/
structure Spec.Unmarked (t : Shallot K) : Prop where
  masks : ∀ c p, c ≠ .gradientFit → t.prop c = some p → p.mask = none
  diagnosed : Shallot.diagnose t = (.ok (), t)

/-- The grid is `t` but for the analysis, and there is no fit without gradients. -/
structure Kept (t s : Shallot K) : Prop where
  same : SameDisks t s
  fit : s.gradients = none → s.gradientFit = none

variable {t : Shallot K}

local notation "RP" => (Inv.pre (S := Shallot K) (Kept t))

theorem getData_unmasked (w : PyVal K) (p : GProp K) (hp : p.mask = none) :
    (GProp.getData w p).2 = p := by
  unfold GProp.getData
  cases boolean w with
  | error e => rfl
  | ok b => cases b <;> simp [hp] <;> rfl

theorem sameDisks_prop {s : Shallot K} (h : SameDisks t s) (c : Cube) (hc : c ≠ .gradientFit) :
    s.prop c = t.prop c := by
  rw [h]
  cases c <;> first | rfl | exact absurd rfl hc

theorem setProp_prop_self (s : Shallot K) (c : Cube) (p : GProp K) (h : s.prop c = some p) :
    s.setProp p c = s := by
  cases s
  cases c <;> simp_all [Shallot.prop, Shallot.setProp]

theorem onFit_rest {α : Type} (m : Meth (GProp K) α) :
    Moves (Inv (Kept t)) (Shallot.onProp .gradientFit m) := by
  intro s hs
  unfold Shallot.onProp
  cases h : s.prop .gradientFit with
  | none => exact hs
  | some p =>
    refine ⟨?_, fun hn => ?_⟩
    · show SameDisks t { s with gradientFit := some (m p).2 }
      have := hs.same
      unfold SameDisks at this ⊢
      rw [this]
    · have : s.gradientFit = some p := h
      rw [hs.fit hn] at this
      cases this

theorem onGradient_rest {α : Type} (k : ℕ) (m : Meth (GGrad K) α) :
    Moves (Inv (Kept t)) (Shallot.onGradient k m) := by
  intro s hs
  unfold Shallot.onGradient
  cases (s.gradients.getD [])[k]? with
  | none => exact hs
  | some g =>
    refine ⟨?_, fun hn => by cases hn⟩
    have := hs.same
    unfold SameDisks at this ⊢
    rw [this]

variable (ht : Unmarked t)
include ht

theorem getCube_rest (c : Cube) (v w : PyVal K) (h : c = .gradientFit ∨ v = .bool false) :
    Moves (Inv (Kept t)) (Shallot.getCube c v w) := by
  by_cases hc : c = .gradientFit
  · subst hc
    unfold Shallot.getCube
    refine Moves.bind RP (onFit_rest _) fun d => ?_
    refine Moves.bind RP (Moves.lift RP _) fun b => ?_
    split_ifs
    · refine Moves.bind RP (Moves.get RP) fun s => ?_
      refine Moves.bind RP (Moves.lift RP _) fun m => ?_
      exact onFit_rest _
    · exact Moves.pure RP d
  · obtain rfl := h.resolve_left hc
    unfold Shallot.getCube
    refine Moves.bind RP ?_ fun d => ?_
    · intro s hs
      unfold Shallot.onProp
      cases hp : s.prop c with
      | none => exact hs
      | some p =>
        have hm : p.mask = none := ht.masks c p hc (by rw [← sameDisks_prop hs.same c hc]; exact hp)
        simp only [getData_unmasked w p hm, setProp_prop_self s c p hp]
        exact hs
    · exact Moves.pure RP d

theorem getGradientFit_rest (v w : PyVal K) : Moves (Inv (Kept t)) (Shallot.getGradientFit v w) := by
  unfold Shallot.getGradientFit
  refine Moves.bind RP (Moves.get RP) fun s => ?_
  split_ifs
  · exact Moves.pure RP _
  · exact Moves.bind RP (getCube_rest ht _ _ _ (Or.inl rfl)) fun d => Moves.pure RP _

theorem diagnose_rest : Moves (Inv (Kept t)) (Shallot.diagnose (K := K)) := by
  intro s hs
  have h := ht.diagnosed
  rw [diagnose_ok] at h ⊢
  replace h := congrArg Shallot.diagnosticMap (Prod.mk.inj h).2
  simp only at h
  have he : fresh .diagnosticMap .eclipseDuration s.params (diagnosticOf s) "viridis" =
      fresh .diagnosticMap .eclipseDuration t.params (diagnosticOf t) "viridis" := by
    rw [hs.same]
    rfl
  rw [he, h]
  refine ⟨?_, hs.fit⟩
  have := hs.same
  unfold SameDisks at this ⊢
  rw [this]

omit ht in
theorem resetFit_rest : Moves (Inv (Kept t)) (Shallot.resetFit (K := K)) := by
  intro s hs
  refine ⟨?_, fun _ => rfl⟩
  have := hs.same
  unfold SameDisks Shallot.resetFit at *
  rw [this]
  rfl

omit ht in
theorem setGradients_rest {s : Shallot K} (hs : Kept t s) (l : List (GGrad K)) :
    Kept t { s with gradients := some l } := by
  refine ⟨?_, fun h => by cases h⟩
  have := hs.same
  unfold SameDisks at *
  rw [this]

omit ht in
theorem setParameters_rest {s : Shallot K} (hs : Kept t s) (a b c : Option (PyVal K)) :
    Kept t { s with eclipseDuration := a, velocity := b, limb := c } := by
  refine ⟨?_, hs.fit⟩
  have := hs.same
  unfold SameDisks at *
  rw [this]

omit ht in
theorem removeLoop_rest (is : List ℤ) : Moves (Inv (Kept t)) (Shallot.removeLoop (K := K) is) := by
  induction is with
  | nil => exact Moves.pure RP ()
  | cons i is ih =>
    unfold Shallot.removeLoop
    refine Moves.get_bind fun s hs => ?_
    by_cases hi : 0 ≤ i ∧ i < (s.gradients.getD []).length
    · rw [if_pos hi]
      refine Moves.bind RP (R := Inv (Kept t)) ?_ (fun _ => ih) s hs
      intro _ _
      exact setGradients_rest hs _
    · rw [if_neg hi]; exact hs

omit ht in
theorem removeGradients_rest [FloorRing K] (v : PyVal K) :
    Moves (Inv (Kept t)) (Shallot.removeGradients v) := by
  unfold Shallot.removeGradients
  refine Moves.bind RP (Moves.get RP) fun s => ?_
  cases s.gradients with
  | none => exact Moves.pure RP ()
  | some l =>
    refine Moves.bind RP (Moves.lift RP _) fun a => ?_
    exact Moves.bind RP (removeLoop_rest _) fun _ => resetFit_rest

omit ht in
theorem storeEclipse_rest (a b c : PyVal K) : Moves (Inv (Kept t)) (Shallot.storeEclipse a b c) := by
  unfold Shallot.storeEclipse
  refine Moves.bind RP (Moves.lift RP _) fun d => ?_
  refine Moves.bind RP (Moves.modify fun s hs => setParameters_rest hs _ _ _) fun _ => ?_
  refine Moves.bind RP (Moves.lift RP _) fun d => ?_
  refine Moves.bind RP (Moves.modify fun s hs => setParameters_rest hs _ _ _) fun _ => ?_
  refine Moves.bind RP (Moves.lift RP _) fun d => ?_
  exact Moves.modify fun s hs => setParameters_rest hs _ _ _

omit ht in
theorem setEclipse_rest (a b c : PyVal K) : Moves (Inv (Kept t)) (Shallot.setEclipseParameters a b c) := by
  unfold Shallot.setEclipseParameters
  refine Moves.bind RP (storeEclipse_rest a b c) fun _ => ?_
  refine Moves.bind RP (Moves.get RP) fun s => ?_
  cases s.gradients with
  | none => exact Moves.pure RP ()
  | some l =>
    intro s hs
    refine ⟨?_, fun _ => rfl⟩
    have := hs.same
    unfold SameDisks at *
    rw [this]
    rfl

omit ht in
theorem determineFit_rest (w : Bool) : Moves (Inv (Kept t)) (Shallot.determineFit (K := K) w) := by
  unfold Shallot.determineFit
  refine Moves.get_bind fun s hs => ?_
  cases hg : s.gradients with
  | none => exact hs
  | some gs =>
    obtain ⟨⟨a, b, c⟩, he⟩ : ∃ g, g = s.params.gridShape := ⟨_, rfl⟩
    simp only [← he]
    cases h1 : Shallot.fitLoop w gs (List.replicate (a * b * c) (.fin 0)) with
    | error e => exact hs
    | ok data =>
      rw [Meth.lift_ok_bind]
      cases h2 : GProp.new .gradientFit .none (.arr ⟨"float64", [a, b, c], data⟩) s.params with
      | error e => exact hs
      | ok p =>
        rw [Meth.lift_ok_bind, Meth.modify_bind]
        refine onFit_rest _ _ ⟨?_, fun hn => ?_⟩
        · have := hs.same
          unfold SameDisks at *
          rw [this]
        · have hn : s.gradients = none := hn
          rw [hg] at hn
          cases hn

theorem lookup_rest (c : Cube) (y x r : ℤ) :
    Moves (Inv (Kept t)) (Shallot.lookup c (.bool false) y x r) :=
  Moves.bind RP (getCube_rest ht _ _ _ (Or.inr rfl)) fun _ => Moves.lift RP _

omit ht in
theorem gradientValues_rest (v : PyVal K) (y x r : ℤ) : ∀ n k : ℕ,
    Moves (Inv (Kept t)) (Shallot.gradientValues v y x r n k)
  | 0, k => Moves.pure RP _
  | n + 1, k => by
    unfold Shallot.gradientValues
    refine Moves.bind RP (Moves.get RP) fun s => ?_
    refine Moves.bind RP (onGradient_rest k _) fun d => ?_
    refine Moves.bind RP (Moves.lift RP _) fun _ => ?_
    exact Moves.bind RP (gradientValues_rest v y x r n (k + 1)) fun _ => Moves.pure RP _

omit ht in
theorem gradientsAt_rest (v : PyVal K) (y x r : ℤ) :
    Moves (Inv (Kept t)) (Shallot.gradientsAt v y x r) := by
  unfold Shallot.gradientsAt
  refine Moves.bind RP (Moves.get RP) fun s => ?_
  cases s.gradients with
  | none => exact Moves.pure RP _
  | some l => exact Moves.bind RP (gradientValues_rest _ _ _ _ _ _) fun _ => Moves.pure RP _

theorem gridPoint_rest (y x r : PyVal K) :
    Moves (Inv (Kept t)) (Shallot.gridPoint y x r (.bool false)) := by
  unfold Shallot.gridPoint
  refine Moves.bind RP (Moves.get RP) fun s => ?_
  refine Moves.bind RP (Moves.lift RP _) fun _ => ?_
  refine Moves.bind RP (Moves.lift RP _) fun _ => ?_
  refine Moves.bind RP (Moves.lift RP _) fun _ => ?_
  refine Moves.bind RP (lookup_rest ht _ _ _ _) fun _ => ?_
  refine Moves.bind RP (lookup_rest ht _ _ _ _) fun _ => ?_
  refine Moves.bind RP (lookup_rest ht _ _ _ _) fun _ => ?_
  refine Moves.bind RP (Moves.lift RP _) fun _ => ?_
  refine Moves.bind RP (Moves.lift RP _) fun _ => ?_
  refine Moves.bind RP (Moves.lift RP _) fun _ => ?_
  refine Moves.bind RP (lookup_rest ht _ _ _ _) fun _ => ?_
  refine Moves.bind RP (lookup_rest ht _ _ _ _) fun _ => ?_
  refine Moves.bind RP (lookup_rest ht _ _ _ _) fun _ => ?_
  exact Moves.bind RP (gradientsAt_rest _ _ _ _) fun _ => Moves.pure RP _

theorem solution_rest : Moves (Inv (Kept t)) (Shallot.solution (K := K)) := by
  unfold Shallot.solution
  refine Moves.bind RP (Moves.get RP) fun s => ?_
  cases s.gradientFit with
  | none => exact Moves.throw RP _
  | some fit =>
    refine Moves.bind RP (Moves.lift RP _) fun i => ?_
    refine Moves.bind RP (gridPoint_rest ht _ _ _) fun p => ?_
    exact Moves.bind RP (onFit_rest _) fun _ => Moves.pure RP _

theorem solutionLoop_rest : ∀ n : ℕ, Moves (Inv (Kept t)) (Shallot.solutionLoop (K := K) n)
  | 0 => Moves.pure RP _
  | n + 1 => by
    unfold Shallot.solutionLoop
    refine Moves.bind RP (solution_rest ht) fun _ => ?_
    exact Moves.bind RP (solutionLoop_rest n) fun _ => Moves.pure RP _

theorem extractSolutions_rest (v : PyVal K) : Moves (Inv (Kept t)) (Shallot.extractSolutions v) := by
  unfold Shallot.extractSolutions
  refine Moves.bind RP (Moves.get RP) fun s => ?_
  refine Moves.bind RP (Moves.lift RP _) fun _ => ?_
  refine Moves.bind RP (Moves.lift RP _) fun _ => ?_
  exact Moves.bind RP (getGradientFit_rest ht _ _) fun _ => solutionLoop_rest ht _

omit ht in
theorem appendGradients_rest : ∀ l : List (XF K), Moves (Inv (Kept t)) (Shallot.appendGradients l)
  | [] => Moves.pure RP _
  | x :: l => by
    unfold Shallot.appendGradients
    refine Moves.get_bind fun s hs => ?_
    cases h : GGrad.new (.arr ⟨"float64", (s.gradientCube x).shape, (s.gradientCube x).data⟩) s.params
      (.npFloat .w64 x) with
    | error e => exact hs
    | ok g =>
      rw [Meth.lift_ok_bind]
      refine Moves.bind RP (R := Inv (Kept t)) ?_ (fun _ => appendGradients_rest l) s hs
      intro _ _
      exact setGradients_rest hs _

omit ht in
theorem determineDiskGradients_rest (a : NpArr K) :
    Moves (Inv (Kept t)) (Shallot.determineDiskGradients a) := by
  unfold Shallot.determineDiskGradients
  refine Moves.bind RP (Moves.lift RP _) fun b => ?_
  exact Moves.bind RP (Moves.modify fun s hs => setGradients_rest hs _) fun _ => appendGradients_rest _

omit ht in
theorem measureLoop_rest (v : PyVal K) : ∀ (l : List (XF K × XF K × XF K)) (k : ℕ),
    Moves (Inv (Kept t)) (Shallot.measureLoop v k l)
  | [], k => Moves.pure RP _
  | (m, e, w) :: l, k => by
    unfold Shallot.measureLoop
    refine Moves.bind RP (Moves.get RP) fun s => ?_
    split_ifs
    · exact Moves.bind RP (onGradient_rest _ _) fun _ => measureLoop_rest v l (k + 1)
    · exact Moves.pure RP _

omit ht in
theorem setMeasured_rest (lc : NpArr K) (e w : PyVal K) :
    Moves (Inv (Kept t)) (Shallot.setMeasured lc e w) := by
  unfold Shallot.setMeasured
  refine Moves.bind RP (Moves.lift RP _) fun _ => ?_
  refine Moves.bind RP (Moves.lift RP _) fun _ => ?_
  refine Moves.bind RP (Moves.lift RP _) fun _ => ?_
  refine Moves.bind RP (Moves.get RP) fun s => ?_
  refine Moves.bind RP (Moves.lift RP _) fun _ => ?_
  exact measureLoop_rest _ _ _

omit ht in
theorem addGradients_rest (a b c d : PyVal K) : Moves (Inv (Kept t)) (Shallot.addGradients a b c d) := by
  unfold Shallot.addGradients
  refine Moves.bind RP (Moves.get RP) fun s => ?_
  split_ifs
  · refine Moves.bind RP (Moves.lift RP _) fun _ => ?_
    refine Moves.bind RP (Moves.lift RP _) fun _ => ?_
    refine Moves.bind RP (Moves.lift RP _) fun _ => ?_
    refine Moves.bind RP (Moves.lift RP _) fun _ => ?_
    refine Moves.bind RP (determineDiskGradients_rest _) fun _ => ?_
    exact Moves.bind RP (setMeasured_rest _ _ _) fun _ => resetFit_rest
  · exact Moves.pure RP _

omit ht in
theorem rescaleLoop_rest (u : Bool) (w : Option (List (XF K))) : ∀ n k : ℕ,
    Moves (Inv (Kept t)) (Shallot.rescaleLoop u w n k)
  | 0, k => Moves.pure RP _
  | n + 1, k => by
    unfold Shallot.rescaleLoop
    refine Moves.bind RP (Moves.get RP) fun s => ?_
    cases (s.gradients.getD [])[k]? with
    | none => exact Moves.pure RP _
    | some g =>
      refine Moves.bind RP (Moves.lift RP _) fun _ => ?_
      exact Moves.bind RP (onGradient_rest _ _) fun _ => rescaleLoop_rest u w n (k + 1)

omit ht in
theorem updateScaling_rest (a b c : PyVal K) : Moves (Inv (Kept t)) (Shallot.updateScaling a b c) := by
  unfold Shallot.updateScaling
  refine Moves.bind RP (Moves.modify fun s hs => setParameters_rest hs s.eclipseDuration _ _) fun _ => ?_
  refine Moves.bind RP (Moves.get RP) fun s => ?_
  refine Moves.bind RP (Moves.lift RP _) fun w => ?_
  split_ifs
  · exact Moves.pure RP _
  · cases s.gradients with
    | none => exact Moves.throw RP _
    | some l => exact Moves.bind RP (rescaleLoop_rest _ _ _ _) fun _ => resetFit_rest

omit ht in
theorem gradientLoop_rest (m : Mask) (v : PyVal K) : ∀ n k : ℕ,
    Moves (Inv (Kept t)) (Shallot.gradientLoop m v n k)
  | 0, k => Moves.pure RP _
  | n + 1, k => by
    unfold Shallot.gradientLoop
    refine Moves.bind RP (Moves.get RP) fun s => ?_
    cases (s.gradients.getD [])[k]? with
    | none => exact Moves.pure RP _
    | some g =>
      refine Moves.bind RP (Moves.lift RP _) fun _ => ?_
      refine Moves.bind RP (onGradient_rest k _) fun d => ?_
      exact Moves.bind RP (gradientLoop_rest m v n (k + 1)) fun _ => Moves.pure RP _

omit ht in
theorem getGradients_rest (a b : PyVal K) : Moves (Inv (Kept t)) (Shallot.getGradients a b) := by
  unfold Shallot.getGradients
  refine Moves.bind RP (Moves.get RP) fun s => ?_
  cases s.gradients with
  | none => exact Moves.throw RP _
  | some l =>
    refine Moves.bind RP (Moves.lift RP _) fun _ => ?_
    refine Moves.bind RP (Moves.lift RP _) fun _ => ?_
    exact gradientLoop_rest _ _ _ _

theorem closestPoint_rest (a b c d : PyVal K) :
    Moves (Inv (Kept t)) (Shallot.closestPoint a b c d (.bool false)) := by
  unfold Shallot.closestPoint
  refine Moves.bind RP (Moves.lift RP _) fun _ => ?_
  refine Moves.bind RP (Moves.lift RP _) fun _ => ?_
  refine Moves.bind RP (Moves.lift RP _) fun _ => ?_
  refine Moves.bind RP (Moves.lift RP _) fun _ => ?_
  show Moves (Inv (Kept t)) (Shallot.getCube .diskRadius (.bool false) >>= _)
  refine Moves.bind RP (getCube_rest ht _ _ _ (Or.inr rfl)) fun _ => ?_
  refine Moves.bind RP (getCube_rest ht _ _ _ (Or.inr rfl)) fun _ => ?_
  refine Moves.bind RP (getCube_rest ht _ _ _ (Or.inr rfl)) fun _ => ?_
  exact Moves.bind RP (Moves.get RP) fun _ => Moves.lift RP _

variable [FloorRing K]

/-- The calls of an analysis: everything but a mask of the Hill radius and but reading the disks with
`masked=True`, which is the default. -/
def Spec.Analysis : GridOp K → Prop
  | .get c masked _ => c = .gradientFit ∨ masked = .bool false
  | .point _ _ _ masked => masked = .bool false
  | .closest _ _ _ _ masked => masked = .bool false
  | .hill _ => False
  | _ => True

theorem exec_rest (op : GridOp K) (h : Analysis op) (s : Shallot K) (hs : Kept t s) :
    Kept t (op.exec s) := by
  cases op with
  | get c v w => exact getCube_rest ht c v w h s hs
  | getFit v w => exact getGradientFit_rest ht v w s hs
  | getGradients v w => exact getGradients_rest v w s hs
  | point y x r v => obtain rfl : v = _ := h; exact gridPoint_rest ht y x r s hs
  | closest a b c d v => obtain rfl : v = _ := h; exact closestPoint_rest ht a b c d s hs
  | hill h' => exact h.elim
  | diagnose => exact diagnose_rest ht s hs
  | add a b c d => exact addGradients_rest a b c d s hs
  | remove v => exact removeGradients_rest v s hs
  | eclipse a b c => exact setEclipse_rest a b c s hs
  | update a b c => exact updateScaling_rest a b c s hs
  | fit w => exact determineFit_rest w s hs
  | extract n => exact extractSolutions_rest ht n s hs

theorem runGrid_rest (ops : List (GridOp K)) (h : ∀ op ∈ ops, Analysis op) (s : Shallot K)
    (hs : Kept t s) : Kept t (runGrid ops s) := by
  induction ops generalizing s with
  | nil => exact hs
  | cons op ops ih =>
    exact ih (fun o ho => h o (by simp [ho])) _ (exec_rest ht op (h op (by simp)) s hs)

omit ht in
/-- A new grid is not masked. -/
theorem unmarked_complete {b s : Shallot K} (h : CompleteFrom b s) : Unmarked s := by
  obtain ⟨m1, m2, m3, m4, m5⟩ := h.masks
  refine ⟨?_, ?_⟩
  · intro c p hc hp
    cases c with
    | diskRadius => cases hp; exact m1
    | inclination => cases hp; exact m2
    | tilt => cases hp; exact m3
    | fxMap => cases hp; exact m4
    | fyMap => cases hp; exact m5
    | diagnosticMap =>
      have hp : s.diagnosticMap = some p := hp
      rw [h.map] at hp
      cases hp
      rfl
    | gradientFit => exact absurd rfl hc
  · rw [diagnose_ok, ← h.map]

omit ht in
/-- The parameters are accepted or not whatever the grid. -/
theorem setEclipse_result (a b c : PyVal K) (s s' : Shallot K) :
    (Shallot.setEclipseParameters a b c s).1 = (Shallot.setEclipseParameters a b c s').1 := by
  have key : ∀ s : Shallot K, (Shallot.setEclipseParameters a b c s).1 = (Shallot.storeEclipse a b c s).1 := by
    intro s
    unfold Shallot.setEclipseParameters
    rcases h : Shallot.storeEclipse a b c s with ⟨e | u, s'⟩
    · rw [bind_err _ _ _ _ _ h]
    · rw [bind_ok _ _ _ _ _ h, Meth.get_bind]
      cases s'.gradients <;> rfl
  rw [key, key]
  unfold Shallot.storeEclipse
  cases number a (.bool false) (.float (.fin 0)) with
  | error e => rfl
  | ok x =>
    simp only [Meth.lift_ok_bind, Meth.modify_bind]
    cases number b (.bool false) (.float (.fin 0)) with
    | error e => rfl
    | ok x =>
      simp only [Meth.lift_ok_bind, Meth.modify_bind]
      cases number c (.bool false) (.float (.fin 0)) (.float (.fin 1)) with
      | error e => rfl
      | ok x => rfl

omit ht in
/-- **C114 (partial)** A grid is made, and then any calls of an analysis are made, in any order, any of
which may raise: eclipse parameters, gradients added, scaled anew and removed, fits, solutions, the disks
read with `masked=False`.  Then `set_eclipse_parameters` raises as on the new grid, and if it does not
raise, leaves the grid exactly as it leaves the new grid.  Missing: reading the disks with `masked=True`,
which is the default, loses them, see `C114_false`; and a mask of the Hill radius remains. -/
theorem C114_partial (minX maxX numX minY maxY numY maxRf numRf : PyVal K) (g g' : GridParams K)
    (hg : GridParams.new minX maxX numX minY maxY numY maxRf numRf = .ok g)
    (hext : g.extendable = true → 2 ≤ g.sliceShape.1 ∧ 2 ≤ g.sliceShape.2) (v k : PyVal K)
    (s : Shallot K) (h : Shallot.new v k g = (.ok s, g')) (ops : List (GridOp K))
    (hops : ∀ op ∈ ops, Analysis op) (vD vV vU : PyVal K) :
    (Shallot.setEclipseParameters vD vV vU (runGrid ops s)).1 = (Shallot.setEclipseParameters vD vV vU s).1 ∧
    ((Shallot.setEclipseParameters vD vV vU s).1 = .ok () →
      Shallot.setEclipseParameters vD vV vU (runGrid ops s) = Shallot.setEclipseParameters vD vV vU s) := by
  refine ⟨setEclipse_result _ _ _ _ _, fun hok => ?_⟩
  obtain ⟨keep, hk, hmade⟩ := made_new _ _ _ _ _ _ _ _ g g' hg hext v k s h
  obtain ⟨n, hn⟩ := hmade.count
  obtain ⟨hA, hB⟩ := C72_new _ _ _ _ _ _ _ _ g hg hext v k n hn keep hk
  have hall : ∀ y x, y < g.dy.data.length → x < g.dx.data.length → Buildable g n y x := by
    by_contra hne
    push Not at hne
    obtain ⟨y, x, hy, hx, hc⟩ := hne
    obtain ⟨e, he⟩ := hB ⟨y, x, hy, hx, hc⟩
    rw [he] at h
    cases h
  obtain ⟨s', d, h1, h2, -⟩ := hA hall
  rw [h] at h1
  cases h1
  have hr := runGrid_rest (unmarked_complete h2) ops hops s ⟨by unfold SameDisks; rfl, fun _ => hmade.nothing.2⟩
  obtain ⟨hA₁, hB₁⟩ := C49_partial s (fun _ => hmade.nothing.2) vD vV vU
  obtain ⟨hA₂, -⟩ := C49_partial (runGrid ops s) hr.fit vD vV vU
  have hval : NotNegative vD ∧ NotNegative vV ∧ Fraction vU := by
    by_contra hno
    obtain ⟨e, s', he, -⟩ := hB₁ hno
    rw [he] at hok
    cases hok
  rw [hA₁ hval, hA₂ hval]
  have := hr.same
  unfold SameDisks at this
  rw [this]

/-! ## What reading with the default arguments costs -/

omit ht in
theorem gradient_lost (p dx dy sh fy : XF K) : Geometry.diskGradient p dx dy sh .nan fy = .nan := by
  have h1 : ∀ x : XF K, x.mul .nan = .nan := by intro x; cases x <;> rfl
  have h2 : ∀ x : XF K, x.add .nan = .nan := by intro x; cases x <;> rfl
  have h3 : ∀ x : XF K, XF.mul .nan x = .nan := by intro x; cases x <;> rfl
  have h4 : ∀ x : XF K, XF.add .nan x = .nan := by intro x; cases x <;> rfl
  have h5 : ∀ x : XF K, x.div .nan = .nan := by intro x; cases x <;> rfl
  unfold Geometry.diskGradient
  have h6 : (XF.nan : XF K).sq = .nan := rfl
  simp only [h6, h2, h3, h4, h5]
  rfl

omit ht in
/-- **C114 is false of the code** If the fx map is read with the default arguments while a grid point is
masked, then the point is masked in every later analysis with at least one measurement, whatever its
parameters and measurements. -/
theorem C114_false (s : Shallot K) (hs : Sound s) (y x r : ℕ) (hy : y < s.params.gridShape.1)
    (hx : x < s.params.gridShape.2.1) (hr : r < s.params.gridShape.2.2)
    (hi : MaskedAt s ((y * s.params.gridShape.2.1 + x) * s.params.gridShape.2.2 + r)) :
    ∃ d s', Shallot.getCube .fxMap (.bool true) (.bool true) s = (.ok d, s') ∧
      ∀ (vD vV vU : PyVal K) (s₁ : Shallot K), Shallot.setEclipseParameters vD vV vU s' = (.ok (), s₁) →
        ∀ (bs : List (List (Measurement K))) (s₂ : Shallot K), bs.flatten ≠ [] →
          addCalls bs s₁ = (.ok (), s₂) →
          MaskedAt s₂ ((y * s.params.gridShape.2.1 + x) * s.params.gridShape.2.2 + r) := by
  obtain ⟨d, h, h1, h2, h3⟩ := getCube_masked s hs .fxMap _ rfl
  have hsh := (hs.props .fxMap _ rfl).data
  have hlt := flat_lt hy hx hr
  have hd := (h3 _ (by rw [hsh.2]; exact hlt)).1 (Or.inr hi)
  refine ⟨d, _, h, ?_⟩
  intro vD vV vU s₁ he bs s₂ hne hadd
  -- what is left after the eclipse parameters
  have key : ∀ s' : Shallot K, Shallot.setEclipseParameters vD vV vU s' = (.ok (), s₁) →
      s₁.params = s'.params ∧ s₁.fxMap = s'.fxMap ∧ s₁.ready = true := by
    intro s' he
    unfold Shallot.setEclipseParameters at he
    rcases storeEclipse_cases vD vV vU s' with ⟨-, -, -, h'⟩ | ⟨-, -, -, e, h'⟩ | ⟨-, -, e, h'⟩ | ⟨-, e, h'⟩
    · rw [bind_ok _ _ _ _ _ h', Meth.get_bind] at he
      cases hg : s'.gradients with
      | none =>
        simp only [hg] at he
        obtain rfl := (Prod.mk.inj he).2
        exact ⟨rfl, rfl, rfl⟩
      | some l =>
        simp only [hg] at he
        obtain rfl := (Prod.mk.inj he).2
        exact ⟨rfl, rfl, rfl⟩
    all_goals
      rw [bind_err _ _ _ _ _ h'] at he
      cases he
  obtain ⟨k1, k2, k3⟩ := key _ he
  replace k1 : s₁.params = s.params := k1
  have hfx : s₁.fxMap.data = d := by rw [k2]; rfl
  obtain ⟨du, scale, -, -, hq, rfl⟩ := addCalls_ok bs s₁ s₂ k3 (by rintro rfl; exact hne rfl) hadd
  obtain ⟨q, hqm⟩ := List.exists_mem_of_ne_nil _ hne
  refine Or.inr (Or.inr (Or.inr ⟨_, rfl, (gradientOf s₁ du scale q).2, by
    simp only [List.mem_append, List.mem_map]
    exact Or.inr ⟨q, hqm, rfl⟩, ?_⟩))
  obtain ⟨m₀, o₀, t₀, e₀, -, -, -, -, -, -, -, -, -, -, -, -, -, -, -, mask, c1, -, c3⟩ :=
    C34_determine_mask _ _ _ _ _ (gradientOf s₁ du scale q).2 (Prod.ext (hq q hqm).2 rfl)
  have hnan : (s₁.gradientCube (q.time.neg.div du.num)).data[(y * s.params.gridShape.2.1 + x) *
      s.params.gridShape.2.2 + r]? = some .nan := by
    unfold Shallot.gradientCube
    rw [k1, cubeOf_get _ _ _ _ hy hx hr, hfx, at3_get (h1.trans hsh.1), getD_of_get _ _ _ hd, gradient_lost]
  refine ⟨mask, c1, ?_⟩
  rcases c3 with ⟨m', o', t', -, -, -, hm⟩ | ⟨-, -, hm⟩
  · exact (hm _ _ hnan).2 (Or.inl rfl)
  · exact (hm _ _ hnan).2 rfl

end
/-! ## The solutions of the second analysis -/

section
variable (minX maxX numX minY maxY numY maxRf numRf : PyVal ℝ) (g : GridParams ℝ)
    (hg : GridParams.new minX maxX numX minY maxY numY maxRf numRf = .ok g) (a b c d m : ℝ)
    (ha : IsNumber false minX (.fin a)) (hb : IsNumber false maxX (.fin b))
    (hc : IsNumber false minY (.fin c)) (hd : IsNumber false maxY (.fin d))
    (hm : IsNumber false maxRf (.fin m))
    (hext : g.extendable = true → 2 ≤ g.sliceShape.1 ∧ 2 ≤ g.sliceShape.2) (v k : PyVal ℝ)
    (s : Shallot ℝ) (g' : GridParams ℝ) (h : Shallot.new v k g = (.ok s, g'))
include hg ha hb hc hd hm hext h

/-- **C114, the solutions (partial)** Whatever analyses a grid has been through, the next one gives the best
solutions for its own parameters and measurements among the disks of the new grid.  Missing: as for
`C114_partial`. -/
theorem C114_solutions_partial (ops : List (GridOp ℝ)) (hops : ∀ op ∈ ops, Analysis op)
    (vD vV vU : PyVal ℝ) (D V U : ℝ) (nD : IsNumber false vD (.fin D))
    (nV : IsNumber false vV (.fin V)) (nU : IsNumber false vU (.fin U)) (hD : 0 < D) (hV : 0 < V)
    (s₁ : Shallot ℝ) (h₁ : Shallot.setEclipseParameters vD vV vU (runGrid ops s) = (.ok (), s₁))
    (bs : List (List (Measurement ℝ))) (hne : bs.flatten ≠ [])
    (hfin : ∀ q ∈ bs.flatten, ∃ τ σ ρ e : ℝ, q.time = .fin τ ∧ q.slope = .fin σ ∧
      q.transmission = .fin ρ ∧ 0 < ρ ∧ q.error = .fin e ∧ 0 < e)
    (s₂ : Shallot ℝ) (h₂ : addCalls bs s₁ = (.ok (), s₂)) (w : Bool) :
    ∃ s₃, Shallot.determineFit w s₂ = (.ok (), s₃) ∧
    ∀ (num : PyVal ℝ) (k : ℤ), num = .none ∨ PlainIndex num k →
      (∃ rows s₄, Shallot.extractSolutions num s₃ = (.ok rows, s₄) ∧
        BestSolutions s w D V U bs.flatten num k rows) ∨
      (num ≠ .none ∧ Shallot.extractSolutions num s₃ = (.error .valueError, s₃) ∧
        (k < 0 ∨ ∀ ps : List (ℕ × ℕ × ℕ), ps.Nodup → (∀ p ∈ ps, ∃ dx dy R I T z,
          HoldsDisk s p dx dy R I T ∧ Explains w D V U bs.flatten dx dy R I T z) →
          (ps.length : ℤ) < k)) := by
  obtain ⟨e1, e2⟩ := C114_partial _ _ _ _ _ _ _ _ g g' hg hext v k s h ops hops vD vV vU
  have h₁' : Shallot.setEclipseParameters vD vV vU s = (.ok (), s₁) := by
    rw [h₁] at e1 e2
    exact (e2 e1.symm).symm
  exact C97_solutions _ _ _ _ _ _ _ _ g hg a b c d m ha hb hc hd hm hext v k s g' h vD vV vU D V U nD nV nU hD hV
    s₁ h₁' bs hne hfin s₂ h₂ w

end

/-- The gradient at mid-eclipse of a disk right above or below the star is 0. -/
theorem throwAway_level (s : Shallot ℝ)
    (h : Shallot.new (.int 100) (.bool false) throwAway = (.ok s, s.params)) :
    s.params.gridShape = (3, 3, 3) ∧ (s.gradientCube (.fin 0)).data[22]? = some (.fin 0) := by
  obtain ⟨s₀, d, h1, h2⟩ := throwAway_grid
  rw [h] at h1
  cases h1
  have hrf : s.params.rf.data.length = 2 := by
    rw [h2.rf]; exact throwAway_length.2.2
  have hl : linspace (.fin 0) (.fin 1) 2 = [XF.fin (0 : ℝ), .fin 1] := two_points 0 1 one_pos
  have hex : (builtGrid throwAway (.int 100) d).params.extendable = true := by
    show throwAway.extendable = true
    simp [throwAway, gridOf, hl, XF.eqb]
  have mx := h2.vectorX hex
  have my := h2.vectorY hex
  have hgs : s.params.gridShape = (3, 3, 3) := by
    rw [h2.shaped.grid, hrf, mx.length', my.length']; rfl
  have hx1 : s.params.dx.data.getD 1 .nan = .fin 0 := by
    obtain ⟨w, h3, h4, -⟩ := mx.values 0 (by show 0 < 2; norm_num)
    have h3' : ([XF.fin 0, .fin 1] : List (XF ℝ))[0]? = some (.fin w) := by rw [← hl]; exact h3
    have e1 : (0 : ℝ) = w := by simpa using h3'
    rw [← e1] at h4
    exact getD_of_get _ _ _ h4
  have hy : s.params.dy.data.getD 2 .nan = .fin 1 := by
    obtain ⟨w, h3, h4, h5⟩ := my.values 1 (by show 1 < 2; norm_num)
    have h3' : ([XF.fin 0, .fin 1] : List (XF ℝ))[1]? = some (.fin w) := by rw [← hl]; exact h3
    have e1 : (1 : ℝ) = w := by simpa using h3'
    rw [← e1] at h4 h5
    exact getD_of_get _ _ _ h4
  have hf : FiniteGrid throwAway := finiteGrid_new _ _ _ _ _ _ _ _ _ throwAway_new 0 1 0 1
    (Or.inl ⟨0, .int 0, by simp⟩) (Or.inl ⟨1, .int 1, by simp⟩) (Or.inl ⟨0, .int 0, by simp⟩)
    (Or.inl ⟨1, .int 1, by simp⟩)
  obtain ⟨a, b, ha, hb, ea, eb⟩ := complete_scales throwAway
    (shapedGrid_new _ _ _ _ _ _ _ _ _ throwAway_new) hf (.int 100) 100 count_hundred
    (fun y x hy hx => throwAway_buildable y x (by rwa [throwAway_length.2.1] at hy) (by
      rwa [throwAway_length.1] at hx)) d s h2 2 1 (by rw [hgs]; norm_num) (by rw [hgs]; norm_num) 0 1
    hx1 hy (Or.inl one_ne_zero)
  rw [throwAway_length.2.2] at ea eb
  refine ⟨hgs, ?_⟩
  show (s.gradientCube (.fin 0)).data[(2 * 3 + 1) * 3 + 1]? = _
  unfold Shallot.gradientCube
  rw [hgs]
  simp only
  rw [cubeOf_get 3 3 3 _ (by norm_num : 2 < 3) (by norm_num : 1 < 3) (by norm_num : 1 < 3), hx1, hy,
    h2.shear 2 1 (by rw [hgs]; norm_num) (by rw [hgs]; norm_num), hx1, hy]
  have hsh : Geometry.shear (.fin 0) (.fin 1) = .fin (0 : ℝ) := by
    rw [shear_ok 0 1 (Or.inl one_ne_zero)]; simp [shearOf]
  rw [hsh, ea, eb]
  have hbad : a * a ≠ 0 := mul_self_ne_zero.2 ha
  unfold Geometry.diskGradient
  simp only [XF.neg_fin, XF.sub_fin, XF.mul_fin, XF.add_fin, XF.sq_fin]
  have hden : (0 * 0 * (b * b) + a * a) * -1 + 0 * (b * b) * ((0 : ℝ) - 0) ≠ 0 := by
    intro h0
    apply hbad
    linarith
  rw [if_pos (by simpa [XF.eqb] using hden), XF.div_fin _ _ hden, XF.arctan2_fin, XF.sin_fin, XF.abs_fin,
    abs_sin_arg]
  simp

/-- **C114 is false of the code, an example** On a new grid a disk is a candidate for a measurement.  After
an analysis of the same grid with another measurement that excludes the disk, and after reading the fx
map, it is no longer one. -/
theorem C114_false_witness : ∃ (s s₁ s₂ t₂ t₃ t₄ t₅ : Shallot ℝ) (d : Nd ℝ) (m m' : Mask),
    Shallot.new (.int 100) (.bool false) throwAway = (.ok s, s.params) ∧
    Shallot.setEclipseParameters (.int 1) (.int 1) (.int 0) s = (.ok (), s₁) ∧
    -- the analysis of the new grid
    addCalls [[probe (1 / 4) 0 1]] s₁ = (.ok (), s₂) ∧ s₂.combinedMask = .ok m ∧
    m.data[22]? = some false ∧
    -- the same after another analysis
    addCalls [[probe 0 (1 / 4) 1]] s₁ = (.ok (), t₂) ∧
    Shallot.getCube .fxMap (.bool true) (.bool true) t₂ = (.ok d, t₃) ∧
    Shallot.setEclipseParameters (.int 1) (.int 1) (.int 0) t₃ = (.ok (), t₄) ∧
    addCalls [[probe (1 / 4) 0 1]] t₄ = (.ok (), t₅) ∧ t₅.combinedMask = .ok m' ∧
    m'.data[22]? = some true := by
  obtain ⟨s, s₁, s₂, h, h₁, h₂, -, -, -, -, m, c1, c2, -⟩ := throwAway_candidates
  obtain ⟨s', s₁', h', he, -, -, -, hs, hgs₁, hr, hd, ⟨k, hk, hk2, ho⟩, hmasks, hg, -⟩ := throwAway_axis_from
  rw [h] at h'
  cases h'
  have he' : s₁' = s₁ := by
    rw [he]
    show (Shallot.setEclipseParameters (.int 1) (.int 1) (.int 0) s).2 = s₁
    rw [h₁]
  subst he'
  obtain ⟨hgs, hlevel⟩ := throwAway_level s h
  have hnn : NotNegative (K := ℝ) (.int 1) := ⟨_, int_isNumber 1, by rw [less_iff]; simp⟩
  have hfr : Fraction (K := ℝ) (.int 0) :=
    ⟨_, int_isNumber 0, by rw [less_iff]; simp, by rw [less_iff]; simp⟩
  obtain ⟨keep, -, hmade⟩ := made_new _ _ _ _ _ _ _ _ throwAway _ throwAway_new (fun _ => ⟨le_rfl, le_rfl⟩) _ _ s h
  have e₁ := (C49_partial s (fun _ => hmade.nothing.2) (.int 1) (.int 1) (.int 0)).1 ⟨hnn, hnn, hfr⟩
  rw [h₁] at e₁
  replace e₁ := (Prod.mk.inj e₁).2
  -- the first analysis
  obtain ⟨hp, q, q1, q2, q3, -⟩ := probe_ok s₁' k 0 (1 / 4) 1 hk hk2 (by norm_num) (by norm_num) (by norm_num)
  obtain ⟨t₂, h₂'⟩ := addCalls_of [[probe 0 (1 / 4) 1]] s₁' hr _ _ hd ho (by
    intro q' hq
    simp only [List.flatten_cons, List.flatten_nil, List.append_nil, List.mem_singleton] at hq
    subst hq
    rw [q1]
    exact ⟨hp, rfl⟩)
  have hst₂ : Sound t₂ := by
    have := addCalls_sound [[probe 0 (1 / 4) 1]] s₁' hs
    rw [h₂'] at this
    exact this
  obtain ⟨du, sc, hd', ho', -, ht₂⟩ := addCalls_ok _ s₁' t₂ hr (by simp) h₂'
  have hcube : s₁'.gradientCube (.fin 0) = s.gradientCube (.fin 0) := by rw [e₁]; rfl
  have hmk : MaskedAt t₂ 22 := by
    refine Or.inr (Or.inr (Or.inr ⟨_, by rw [ht₂], q, ?_, ?_⟩))
    · have a1 : du = .int 1 := by
        have := hd'.eq
        rw [hd.eq] at this
        exact (Option.some.inj this).symm
      have a2 : sc = .float (.fin k) := by
        rw [ho] at ho'
        exact (Except.ok.inj ho').symm
      rw [a1, a2]
      simp only [hg, List.flatten_cons, List.flatten_nil, List.append_nil, List.map_cons, List.map_nil]
      rw [q1]
      simp
    · refine ⟨_, q3, ?_⟩
      have e22 : q.prop.data.data[22]? = some (.fin 0) := by
        rw [q2, neg_zero, hcube]
        exact hlevel
      simp only [List.getElem?_map, e22, Option.map_some, Option.some.injEq]
      have : (0 : ℝ) < 1 / 4 * k := by positivity
      simp [GGrad.maskAt, XF.lt, XF.isNan, hk]
  have hgs₂ : t₂.params.gridShape = (3, 3, 3) := by rw [ht₂]; exact hgs₁
  obtain ⟨d, t₃, hget, hall⟩ := C114_false t₂ hst₂ 2 1 1 (by rw [hgs₂]; norm_num) (by rw [hgs₂]; norm_num)
    (by rw [hgs₂]; norm_num) (by rw [hgs₂]; exact hmk)
  have hst₃ : Sound t₃ := by
    have := getCube_sound .fxMap (.bool true) (.bool true) t₂ hst₂
    rw [hget] at this
    exact this
  -- the second analysis
  have hfit : t₃.gradients = none → t₃.gradientFit = none := by
    intro hn
    have h3 : t₃.gradients = t₂.gradients := by
      have := getCube_masked t₂ hst₂ .fxMap _ rfl
      obtain ⟨d', h', -⟩ := this
      rw [hget] at h'
      rw [(Prod.mk.inj h').2]
      rfl
    rw [h3, ht₂] at hn
    cases hn
  have e₄ := (C49_partial t₃ hfit (.int 1) (.int 1) (.int 0)).1 ⟨hnn, hnn, hfr⟩
  obtain ⟨t₄, ht₄⟩ : ∃ t₄ : Shallot ℝ, t₄ = { t₃ with
    eclipseDuration := some (.int 1), velocity := some (.int 1), limb := some (.int 0)
    gradients := none, gradientFit := none } := ⟨_, rfl⟩
  rw [← ht₄] at e₄
  have ho₄ : t₄.orbital = .ok (.float (.fin k)) := by
    rw [← ho, ht₄, e₁]
    rfl
  obtain ⟨hp', q', q1', -⟩ := probe_ok t₄ k (1 / 4) 0 1 hk hk2 (by norm_num) (by norm_num) (by norm_num)
  obtain ⟨t₅, h₅⟩ := addCalls_of [[probe (1 / 4) 0 1]] t₄ (by rw [ht₄]; rfl) _ _
    (by rw [ht₄]; exact ⟨rfl, rfl⟩) ho₄ (by
    intro q' hq
    simp only [List.flatten_cons, List.flatten_nil, List.append_nil, List.mem_singleton] at hq
    subst hq
    rw [q1']
    exact ⟨hp', rfl⟩)
  have hst₅ : Sound t₅ := by
    have h4 := setEclipse_sound (.int 1) (.int 1) (.int 0) t₃ hst₃
    rw [e₄] at h4
    have := addCalls_sound [[probe (1 / 4) 0 1]] t₄ h4
    rw [h₅] at this
    exact this
  obtain ⟨m', m1, -, -, m2⟩ := C38_union t₅ hst₅
  have hend := hall _ _ _ t₄ e₄ _ t₅ (by simp) h₅
  rw [hgs₂] at hend
  exact ⟨s, s₁', s₂, t₂, t₃, t₄, t₅, d, m, m', h, h₁, h₂, c1, c2, h₂', hget, e₄, h₅, m1, (m2 22).2 hend⟩

/-- The session of the notebook is an analysis: gradients and a fit for one velocity, the gradients scaled
anew, read with the combined mask, the solutions. -/
example (t l e : PyVal ℝ) : ∀ op ∈ ([.eclipse (.int 1) (.int 1) (.int 0), .add t l e .none, .fit true,
    .update (.int 2) .none .none, .fit true, .getGradients (.bool true) (.bool true),
    .getFit (.bool true) (.bool true), .extract .none, .get .diskRadius (.bool false) (.bool true), .diagnose] :
      List (GridOp ℝ)), Analysis op := by
  simp [Analysis]

end Beyonce
