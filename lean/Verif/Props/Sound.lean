import Verif.Props.Keeps

/-!
# Every method keeps the shapes of the arrays
-/

set_option linter.unusedSectionVars false

namespace Beyonce
open Spec

section
variable {K : Type} [Field K] [LinearOrder K] [IsStrictOrderedRing K]

local notation "SP" => (Inv.pre (S := Shallot K) Sound)

theorem getCube_sound (c : Cube) (v w : PyVal K) : Moves (Inv Sound) (Shallot.getCube c v w) := by
  unfold Shallot.getCube
  refine Moves.bind SP (onProp_sound c _ (getData_shape w)) fun d => ?_
  refine Moves.bind SP (Moves.lift SP _) fun b => ?_
  split_ifs
  · refine Moves.bind SP (Moves.get SP) fun s => ?_
    refine Moves.bind SP (Moves.lift SP _) fun m => ?_
    exact onProp_sound c _ (nanWhere_shape m)
  · exact Moves.pure SP d

theorem getGradientFit_sound (v w : PyVal K) : Moves (Inv Sound) (Shallot.getGradientFit v w) := by
  unfold Shallot.getGradientFit
  refine Moves.bind SP (Moves.get SP) fun s => ?_
  split_ifs
  · exact Moves.pure SP _
  · exact Moves.bind SP (getCube_sound _ _ _) fun d => Moves.pure SP _

theorem hillMask_sound (h : PyVal K) : Moves (Inv Sound) (Shallot.hillMask h) := by
  unfold Shallot.hillMask
  refine Moves.bind SP (Moves.lift SP _) fun x => ?_
  refine Moves.get_bind fun s hs => ?_
  exact sound_setProp hs .diskRadius _ (setMask_shape (fun y => .fin (if Shallot.hillAt x.num y then 1 else 0)) _ _ _ _ (hs.props .diskRadius _ rfl).data _
    (hs.props .diskRadius _ rfl))

theorem inShape_new {name : PropName} {unit : PropUnit} {d : Nd K} {g : GridParams K} {p : GProp K}
    (hd : d.Cubic g.gridShape.1 g.gridShape.2.1 g.gridShape.2.2)
    (h : GProp.new name unit (.arr ⟨"float64", d.shape, d.data⟩) g = .ok p) :
    InShape g.gridShape.1 g.gridShape.2.1 g.gridShape.2.2 p := by
  obtain ⟨a, h1, -, -, rfl⟩ := (prop_new_ok_iff _ _ _ _ _).1 h
  obtain rfl : _ = a := by simpa using h1
  exact ⟨hd, by intro m hm; cases hm⟩

theorem diagnose_sound : Moves (Inv Sound) (Shallot.diagnose (K := K)) := by
  unfold Shallot.diagnose
  refine Moves.get_bind fun s hs => ?_
  obtain ⟨values, hv⟩ : ∃ v, v = cubeOf s.params.gridShape.1 s.params.gridShape.2.1
    s.params.gridShape.2.2 fun y x r =>
    ((s.diskRadius.data.at3 y x r).div (s.diskRadius.data.at3 y x (s.params.rf.data.length - 1))).sub
      (s.params.rfArray.data.getD r .nan) := ⟨_, rfl⟩
  simp only [← hv]
  cases h : GProp.new .diagnosticMap .eclipseDuration
    (.arr ⟨"float64", values.shape, values.data⟩) s.params with
  | error e => exact hs
  | ok p =>
    exact sound_setProp hs .diagnosticMap p (inShape_new (by rw [hv]; exact cubic_cubeOf _ _ _ _) h)

theorem noFit_sound {s : Shallot K} (hs : Sound s) : Sound { s with gradientFit := none } := by
  refine ⟨hs.shaped, ?_, hs.gradients⟩
  intro c p h
  cases c with
  | gradientFit => cases h
  | diskRadius => exact hs.props .diskRadius p h
  | inclination => exact hs.props .inclination p h
  | tilt => exact hs.props .tilt p h
  | fxMap => exact hs.props .fxMap p h
  | fyMap => exact hs.props .fyMap p h
  | diagnosticMap => exact hs.props .diagnosticMap p h

theorem resetFit_sound : Moves (Inv Sound) (Shallot.resetFit (K := K)) := fun _ hs => noFit_sound hs

theorem setGradients_sound {s : Shallot K} (hs : Sound s) (l : Option (List (GGrad K)))
    (hl : ∀ l', l = some l' → ∀ g ∈ l',
      InShape s.params.gridShape.1 s.params.gridShape.2.1 s.params.gridShape.2.2 g.prop) :
    Sound { s with gradients := l } := by
  refine ⟨hs.shaped, ?_, hl⟩
  intro c p h
  exact hs.props c p (by cases c <;> exact h)

theorem sound_getD {s : Shallot K} (hs : Sound s) : ∀ g ∈ s.gradients.getD [],
    InShape s.params.gridShape.1 s.params.gridShape.2.1 s.params.gridShape.2.2 g.prop := by
  intro g hg
  cases h : s.gradients with
  | none => rw [h] at hg; cases hg
  | some l => rw [h] at hg; exact hs.gradients l h g hg

theorem removeLoop_sound (is : List ℤ) : Moves (Inv Sound) (Shallot.removeLoop (K := K) is) := by
  induction is with
  | nil => exact Moves.pure SP ()
  | cons i is ih =>
    unfold Shallot.removeLoop
    refine Moves.get_bind fun s hs => ?_
    by_cases hi : 0 ≤ i ∧ i < (s.gradients.getD []).length
    · rw [if_pos hi]
      refine Moves.bind SP (R := Inv Sound) ?_ (fun _ => ih) s hs
      intro _ _
      refine setGradients_sound hs _ ?_
      intro l' h g hg
      cases h
      exact sound_getD hs g (List.mem_of_mem_eraseIdx hg)
    · rw [if_neg hi]; exact hs

theorem removeGradients_sound [FloorRing K] (v : PyVal K) :
    Moves (Inv Sound) (Shallot.removeGradients v) := by
  unfold Shallot.removeGradients
  refine Moves.bind SP (Moves.get SP) fun s => ?_
  cases s.gradients with
  | none => exact Moves.pure SP ()
  | some l =>
    refine Moves.bind SP (Moves.lift SP _) fun a => ?_
    exact Moves.bind SP (removeLoop_sound _) fun _ => resetFit_sound

theorem sound_congr {s s' : Shallot K} (hs : Sound s) (h1 : s'.params = s.params)
    (h2 : ∀ c, s'.prop c = s.prop c) (h3 : s'.gradients = s.gradients) : Sound s' :=
  ⟨by rw [h1]; exact hs.shaped, by rw [h1]; intro c p; rw [h2]; exact hs.props c p,
    by rw [h1, h3]; exact hs.gradients⟩

theorem storeEclipse_sound (a b c : PyVal K) : Moves (Inv Sound) (Shallot.storeEclipse a b c) := by
  unfold Shallot.storeEclipse
  refine Moves.bind SP (Moves.lift SP _) fun d => ?_
  refine Moves.bind SP (Moves.modify fun s hs => sound_congr hs rfl (by intro c; cases c <;> rfl) rfl)
    fun _ => ?_
  refine Moves.bind SP (Moves.lift SP _) fun d => ?_
  refine Moves.bind SP (Moves.modify fun s hs => sound_congr hs rfl (by intro c; cases c <;> rfl) rfl)
    fun _ => ?_
  refine Moves.bind SP (Moves.lift SP _) fun d => ?_
  exact Moves.modify fun s hs => sound_congr hs rfl (by intro c; cases c <;> rfl) rfl

theorem setEclipse_sound (a b c : PyVal K) :
    Moves (Inv Sound) (Shallot.setEclipseParameters a b c) := by
  unfold Shallot.setEclipseParameters
  refine Moves.bind SP (storeEclipse_sound a b c) fun _ => ?_
  refine Moves.bind SP (Moves.get SP) fun s => ?_
  cases s.gradients with
  | none => exact Moves.pure SP ()
  | some l =>
    refine Moves.bind SP (Moves.modify fun s hs => setGradients_sound hs none (by simp)) fun _ => ?_
    exact resetFit_sound

theorem fitLoop_length (w : Bool) (n : ℕ) : ∀ (gs : List (GGrad K)) (acc out : List (XF K)),
    acc.length = n → (∀ g ∈ gs, g.prop.data.data.length = n) →
    Shallot.fitLoop w gs acc = .ok out → out.length = n
  | [], acc, out, ha, _, h => by cases h; exact ha
  | g :: gs, acc, out, ha, hg, h => by
    unfold Shallot.fitLoop at h
    cases h1 : Shallot.fitWeight w g with
    | error e => rw [h1, error_bind] at h; cases h
    | ok x =>
      rw [h1, ok_bind] at h
      cases h2 : Shallot.fitScaled g with
      | error e => rw [h2, error_bind] at h; cases h
      | ok y =>
        rw [h2, ok_bind] at h
        exact fitLoop_length w n gs _ out (by simp [ha, hg g (by simp)])
          (fun g' h' => hg g' (by simp [h'])) h

theorem determineFit_sound (w : Bool) : Moves (Inv Sound) (Shallot.determineFit (K := K) w) := by
  unfold Shallot.determineFit
  refine Moves.get_bind fun s hs => ?_
  cases hg : s.gradients with
  | none => exact hs
  | some gs =>
    obtain ⟨⟨a, b, c⟩, he⟩ : ∃ g, g = s.params.gridShape := ⟨_, rfl⟩
    simp only [← he]
    cases h1 : Shallot.fitLoop w gs (List.replicate (a * b * c) (.fin 0)) with
    | error e => exact hs
    | ok data =>
      rw [Meth.lift_ok_bind]
      have hgs := hs.gradients gs hg
      rw [← he] at hgs
      have hlen : data.length = a * b * c := fitLoop_length w _ gs _ data (by simp)
        (fun g h => (hgs g h).data.2) h1
      cases h2 : GProp.new .gradientFit .none (.arr ⟨"float64", [a, b, c], data⟩) s.params with
      | error e => exact hs
      | ok p =>
        rw [Meth.lift_ok_bind, Meth.modify_bind]
        have hp := inShape_new (d := ⟨[a, b, c], data⟩) (by rw [← he]; exact ⟨rfl, hlen⟩) h2
        have hs' := sound_setProp hs .gradientFit p hp
        refine sound_setProp hs' .gradientFit _ ?_
        rw [setProp_params]
        refine setMask_shape _ ⟨[a, b, c], data⟩ _ _ _ ?_ _ hp
        rw [← he]; exact ⟨rfl, hlen⟩

theorem lookup_sound (c : Cube) (v : PyVal K) (y x r : ℤ) :
    Moves (Inv Sound) (Shallot.lookup c v y x r) :=
  Moves.bind SP (getCube_sound _ _ _) fun _ => Moves.lift SP _

theorem gradientValues_sound (v : PyVal K) (y x r : ℤ) : ∀ n k : ℕ,
    Moves (Inv Sound) (Shallot.gradientValues v y x r n k)
  | 0, k => Moves.pure SP _
  | n + 1, k => by
    unfold Shallot.gradientValues
    refine Moves.bind SP (Moves.get SP) fun s => ?_
    refine Moves.bind SP (onGradient_sound k _ ?_) fun d => ?_
    · intro a b c g hg
      exact getData_shape v a b c g.prop hg
    refine Moves.bind SP (Moves.lift SP _) fun _ => ?_
    exact Moves.bind SP (gradientValues_sound v y x r n (k + 1)) fun _ => Moves.pure SP _

theorem gradientsAt_sound (v : PyVal K) (y x r : ℤ) :
    Moves (Inv Sound) (Shallot.gradientsAt v y x r) := by
  unfold Shallot.gradientsAt
  refine Moves.bind SP (Moves.get SP) fun s => ?_
  cases s.gradients with
  | none => exact Moves.pure SP _
  | some l => exact Moves.bind SP (gradientValues_sound _ _ _ _ _ _) fun _ => Moves.pure SP _

theorem gridPoint_sound (y x r v : PyVal K) : Moves (Inv Sound) (Shallot.gridPoint y x r v) := by
  unfold Shallot.gridPoint
  refine Moves.bind SP (Moves.get SP) fun s => ?_
  refine Moves.bind SP (Moves.lift SP _) fun _ => ?_
  refine Moves.bind SP (Moves.lift SP _) fun _ => ?_
  refine Moves.bind SP (Moves.lift SP _) fun _ => ?_
  refine Moves.bind SP (lookup_sound _ _ _ _ _) fun _ => ?_
  refine Moves.bind SP (lookup_sound _ _ _ _ _) fun _ => ?_
  refine Moves.bind SP (lookup_sound _ _ _ _ _) fun _ => ?_
  refine Moves.bind SP (Moves.lift SP _) fun _ => ?_
  refine Moves.bind SP (Moves.lift SP _) fun _ => ?_
  refine Moves.bind SP (Moves.lift SP _) fun _ => ?_
  refine Moves.bind SP (lookup_sound _ _ _ _ _) fun _ => ?_
  refine Moves.bind SP (lookup_sound _ _ _ _ _) fun _ => ?_
  refine Moves.bind SP (lookup_sound _ _ _ _ _) fun _ => ?_
  exact Moves.bind SP (gradientsAt_sound _ _ _ _) fun _ => Moves.pure SP _

theorem eraseAt_shape (i : ℕ) : ShapeKeeping (Shallot.eraseAt (K := K) i) := by
  intro a b c p hp
  exact inShape_of hp rfl (List.length_set ..) rfl

theorem solution_sound : Moves (Inv Sound) (Shallot.solution (K := K)) := by
  unfold Shallot.solution
  refine Moves.bind SP (Moves.get SP) fun s => ?_
  cases s.gradientFit with
  | none => exact Moves.throw SP _
  | some fit =>
    refine Moves.bind SP (Moves.lift SP _) fun i => ?_
    refine Moves.bind SP (gridPoint_sound _ _ _ _) fun p => ?_
    exact Moves.bind SP (onProp_sound _ _ (eraseAt_shape i)) fun _ => Moves.pure SP _

theorem solutionLoop_sound : ∀ n : ℕ, Moves (Inv Sound) (Shallot.solutionLoop (K := K) n)
  | 0 => Moves.pure SP _
  | n + 1 => by
    unfold Shallot.solutionLoop
    refine Moves.bind SP solution_sound fun _ => ?_
    exact Moves.bind SP (solutionLoop_sound n) fun _ => Moves.pure SP _

theorem extractSolutions_sound (v : PyVal K) : Moves (Inv Sound) (Shallot.extractSolutions v) := by
  unfold Shallot.extractSolutions
  refine Moves.bind SP (Moves.get SP) fun s => ?_
  refine Moves.bind SP (Moves.lift SP _) fun _ => ?_
  refine Moves.bind SP (Moves.lift SP _) fun _ => ?_
  exact Moves.bind SP (getGradientFit_sound _ _) fun _ => solutionLoop_sound _

variable [RealFns K]

theorem gradientCube_cubic (s : Shallot K) (x : XF K) :
    (s.gradientCube x).Cubic s.params.gridShape.1 s.params.gridShape.2.1 s.params.gridShape.2.2 :=
  cubic_cubeOf _ _ _ _

theorem appendGradients_sound : ∀ l : List (XF K), Moves (Inv Sound) (Shallot.appendGradients l)
  | [] => Moves.pure SP _
  | x :: l => by
    unfold Shallot.appendGradients
    refine Moves.get_bind fun s hs => ?_
    cases h : GGrad.new (.arr ⟨"float64", (s.gradientCube x).shape, (s.gradientCube x).data⟩) s.params
      (.npFloat .w64 x) with
    | error e => exact hs
    | ok g =>
      rw [Meth.lift_ok_bind]
      refine Moves.bind SP (R := Inv Sound) ?_ (fun _ => appendGradients_sound l) s hs
      intro _ _
      refine setGradients_sound hs _ ?_
      intro l' h' g' hg'
      cases h'
      rcases List.mem_append.1 hg' with hg' | hg'
      · exact sound_getD hs g' hg'
      · obtain rfl : g' = g := by simpa using hg'
        unfold GGrad.new at h
        cases h1 : GProp.new .gradient .none (.arr ⟨"float64", (s.gradientCube x).shape,
          (s.gradientCube x).data⟩) s.params with
        | error e => rw [h1, error_bind] at h; cases h
        | ok p =>
          rw [h1, ok_bind] at h
          cases h2 : number (.npFloat .w64 x : PyVal K) with
          | error e => rw [h2, error_bind] at h; cases h
          | ok y =>
            rw [h2, ok_bind] at h
            cases h
            exact inShape_new (gradientCube_cubic s x) h1

theorem determineDiskGradients_sound (a : NpArr K) :
    Moves (Inv Sound) (Shallot.determineDiskGradients a) := by
  unfold Shallot.determineDiskGradients
  refine Moves.bind SP (Moves.lift SP _) fun b => ?_
  refine Moves.bind SP (Moves.modify fun s hs => setGradients_sound hs _ ?_)
    fun _ => appendGradients_sound _
  intro l h g hg
  cases h
  exact sound_getD hs g hg

theorem onDetermineMask_sound (k : ℕ) (a b c d : PyVal K) :
    Moves (Inv Sound) (Shallot.onGradient k (GGrad.determineMask a b c d)) :=
  onGradient_sound k _ fun _ _ _ g hg => determineMask_shape _ _ _ _ _ _ _ g hg

theorem measureLoop_sound (v : PyVal K) : ∀ (l : List (XF K × XF K × XF K)) (k : ℕ),
    Moves (Inv Sound) (Shallot.measureLoop v k l)
  | [], k => Moves.pure SP _
  | (m, e, t) :: l, k => by
    unfold Shallot.measureLoop
    refine Moves.bind SP (Moves.get SP) fun s => ?_
    split_ifs
    · exact Moves.bind SP (onDetermineMask_sound _ _ _ _ _) fun _ => measureLoop_sound v l (k + 1)
    · exact Moves.pure SP _

theorem setMeasured_sound (lc : NpArr K) (e t : PyVal K) :
    Moves (Inv Sound) (Shallot.setMeasured lc e t) := by
  unfold Shallot.setMeasured
  refine Moves.bind SP (Moves.lift SP _) fun _ => ?_
  refine Moves.bind SP (Moves.lift SP _) fun _ => ?_
  refine Moves.bind SP (Moves.lift SP _) fun _ => ?_
  refine Moves.bind SP (Moves.get SP) fun s => ?_
  refine Moves.bind SP (Moves.lift SP _) fun _ => ?_
  exact measureLoop_sound _ _ _

theorem addGradients_sound (a b c d : PyVal K) : Moves (Inv Sound) (Shallot.addGradients a b c d) := by
  unfold Shallot.addGradients
  refine Moves.bind SP (Moves.get SP) fun s => ?_
  split_ifs
  · refine Moves.bind SP (Moves.lift SP _) fun _ => ?_
    refine Moves.bind SP (Moves.lift SP _) fun _ => ?_
    refine Moves.bind SP (Moves.lift SP _) fun _ => ?_
    refine Moves.bind SP (Moves.lift SP _) fun _ => ?_
    refine Moves.bind SP (determineDiskGradients_sound _) fun _ => ?_
    exact Moves.bind SP (setMeasured_sound _ _ _) fun _ => resetFit_sound
  · exact Moves.pure SP _

theorem rescaleLoop_sound (u : Bool) (t : Option (List (XF K))) : ∀ n k : ℕ,
    Moves (Inv Sound) (Shallot.rescaleLoop u t n k)
  | 0, k => Moves.pure SP _
  | n + 1, k => by
    unfold Shallot.rescaleLoop
    refine Moves.bind SP (Moves.get SP) fun s => ?_
    cases (s.gradients.getD [])[k]? with
    | none => exact Moves.pure SP _
    | some g =>
      refine Moves.bind SP (Moves.lift SP _) fun _ => ?_
      exact Moves.bind SP (onDetermineMask_sound _ _ _ _ _) fun _ => rescaleLoop_sound u t n (k + 1)

theorem updateScaling_sound (a b c : PyVal K) : Moves (Inv Sound) (Shallot.updateScaling a b c) := by
  unfold Shallot.updateScaling
  refine Moves.bind SP (Moves.modify fun s hs => sound_congr hs rfl (by intro c; cases c <;> rfl) rfl)
    fun _ => ?_
  refine Moves.bind SP (Moves.get SP) fun s => ?_
  refine Moves.bind SP (Moves.lift SP _) fun t => ?_
  split_ifs
  · exact Moves.pure SP _
  · cases s.gradients with
    | none => exact Moves.throw SP _
    | some l => exact Moves.bind SP (rescaleLoop_sound _ _ _ _) fun _ => resetFit_sound

theorem gradientLoop_sound (m : Mask) (v : PyVal K) : ∀ n k : ℕ,
    Moves (Inv Sound) (Shallot.gradientLoop m v n k)
  | 0, k => Moves.pure SP _
  | n + 1, k => by
    unfold Shallot.gradientLoop
    refine Moves.bind SP (Moves.get SP) fun s => ?_
    cases (s.gradients.getD [])[k]? with
    | none => exact Moves.pure SP _
    | some g =>
      refine Moves.bind SP (Moves.lift SP _) fun _ => ?_
      refine Moves.bind SP (onGradient_sound k _ ?_) fun d => ?_
      · intro a b c g hg
        exact getData_shape v a b c g.prop hg
      exact Moves.bind SP (gradientLoop_sound m v n (k + 1)) fun _ => Moves.pure SP _

theorem getGradients_sound (a b : PyVal K) : Moves (Inv Sound) (Shallot.getGradients a b) := by
  unfold Shallot.getGradients
  refine Moves.bind SP (Moves.get SP) fun s => ?_
  cases s.gradients with
  | none => exact Moves.throw SP _
  | some l =>
    refine Moves.bind SP (Moves.lift SP _) fun _ => ?_
    refine Moves.bind SP (Moves.lift SP _) fun _ => ?_
    exact gradientLoop_sound _ _ _ _

theorem closestPoint_sound (a b c d e : PyVal K) :
    Moves (Inv Sound) (Shallot.closestPoint a b c d e) := by
  unfold Shallot.closestPoint
  refine Moves.bind SP (Moves.lift SP _) fun _ => ?_
  refine Moves.bind SP (Moves.lift SP _) fun _ => ?_
  refine Moves.bind SP (Moves.lift SP _) fun _ => ?_
  refine Moves.bind SP (Moves.lift SP _) fun _ => ?_
  refine Moves.bind SP (Moves.lift SP _) fun _ => ?_
  refine Moves.bind SP (getCube_sound _ _ _) fun _ => ?_
  refine Moves.bind SP (getCube_sound _ _ _) fun _ => ?_
  refine Moves.bind SP (getCube_sound _ _ _) fun _ => ?_
  exact Moves.bind SP (Moves.get SP) fun _ => Moves.lift SP _

/-- A new grid is sound. -/
theorem sound_complete {b s : Shallot K} (h : CompleteFrom b s) : Sound s := by
  obtain ⟨m1, m2, m3, m4, m5⟩ := h.masks
  have no : ∀ {p : GProp K}, p.mask = none → ∀ m, p.mask = some m → m.shape =
      [s.params.gridShape.1, s.params.gridShape.2.1, s.params.gridShape.2.2] ∧ m.data.length =
      s.params.gridShape.1 * s.params.gridShape.2.1 * s.params.gridShape.2.2 := by
    intro p hp m hm
    rw [hp] at hm
    cases hm
  refine ⟨h.shaped, ?_, ?_⟩
  · intro c p hp
    cases c with
    | diskRadius => cases hp; exact ⟨h.diskRadius.1, no m1⟩
    | inclination => cases hp; exact ⟨h.inclination.1, no m2⟩
    | tilt => cases hp; exact ⟨h.tiltCubic, no m3⟩
    | fxMap => cases hp; exact ⟨h.fxMap.1, no m4⟩
    | fyMap => cases hp; exact ⟨h.fyMap.1, no m5⟩
    | diagnosticMap =>
      have : s.prop .diagnosticMap = s.diagnosticMap := rfl
      rw [this, h.map] at hp
      cases hp
      exact ⟨cubic_cubeOf _ _ _ _, no rfl⟩
    | gradientFit =>
      have : s.prop .gradientFit = s.gradientFit := rfl
      rw [this, h.nothing.2.1] at hp
      cases hp
  · intro l hl
    rw [h.nothing.1] at hl
    cases hl

/-! ## Histories -/

/-- The public methods of a built grid, with arbitrary arguments. -/
inductive GridOp (K : Type)
  | get (c : Cube) (masked propertyMasked : PyVal K)
  | getFit (masked propertyMasked : PyVal K)
  | getGradients (masked propertyMasked : PyVal K)
  | point (y x r masked : PyVal K)
  | closest (radius inclination tilt impact masked : PyVal K)
  | hill (h : PyVal K)
  | diagnose
  | add (times lc errors transmissions : PyVal K)
  | remove (indices : PyVal K)
  | eclipse (duration velocity limb : PyVal K)
  | update (velocity limb transmissions : PyVal K)
  | fit (weighted : Bool)
  | extract (num : PyVal K)

variable [FloorRing K]

/-- Call the method; an exception is caught. -/
def GridOp.exec : GridOp K → Shallot K → Shallot K
  | .get c v w, s => (Shallot.getCube c v w s).2
  | .getFit v w, s => (Shallot.getGradientFit v w s).2
  | .getGradients v w, s => (Shallot.getGradients v w s).2
  | .point y x r v, s => (Shallot.gridPoint y x r v s).2
  | .closest a b c d v, s => (Shallot.closestPoint a b c d v s).2
  | .hill h, s => (Shallot.hillMask h s).2
  | .diagnose, s => (Shallot.diagnose s).2
  | .add a b c d, s => (Shallot.addGradients a b c d s).2
  | .remove v, s => (Shallot.removeGradients v s).2
  | .eclipse a b c, s => (Shallot.setEclipseParameters a b c s).2
  | .update a b c, s => (Shallot.updateScaling a b c s).2
  | .fit w, s => (Shallot.determineFit w s).2
  | .extract n, s => (Shallot.extractSolutions n s).2

/-- A sequence of calls. -/
def runGrid (ops : List (GridOp K)) (s : Shallot K) : Shallot K := ops.foldl (fun s op => op.exec s) s

theorem exec_sound (op : GridOp K) (s : Shallot K) (hs : Sound s) : Sound (op.exec s) := by
  cases op with
  | get c v w => exact getCube_sound c v w s hs
  | getFit v w => exact getGradientFit_sound v w s hs
  | getGradients v w => exact getGradients_sound v w s hs
  | point y x r v => exact gridPoint_sound y x r v s hs
  | closest a b c d v => exact closestPoint_sound a b c d v s hs
  | hill h => exact hillMask_sound h s hs
  | diagnose => exact diagnose_sound s hs
  | add a b c d => exact addGradients_sound a b c d s hs
  | remove v => exact removeGradients_sound v s hs
  | eclipse a b c => exact setEclipse_sound a b c s hs
  | update a b c => exact updateScaling_sound a b c s hs
  | fit w => exact determineFit_sound w s hs
  | extract n => exact extractSolutions_sound n s hs

/-- Whatever is called in whatever order, all arrays keep the shape of the grid. -/
theorem runGrid_sound (ops : List (GridOp K)) (s : Shallot K) (hs : Sound s) :
    Sound (runGrid ops s) := by
  induction ops generalizing s with
  | nil => exact hs
  | cons op ops ih => exact ih _ (exec_sound op s hs)

end
end Beyonce
