import Verif.Props.Stale

/-!
# Property C132: what a call can change
-/

set_option linter.unusedSectionVars false

namespace Beyonce
open Spec

section
variable {K : Type} [Field K] [LinearOrder K] [IsStrictOrderedRing K] [RealFns K] [FloorRing K]

/-- The parts of a grid: what is fixed when it is built; the eclipse parameters; of each property its values, its mask
and the rest, `look`; of the gradients their positions, values, masks, measurements and the rest. -/
inductive Spec.Part
  | fixed | duration | velocity | limb
  | values (c : Cube) | mask (c : Cube) | look (c : Cube)
  | positions | slopes | slopeMasks | measurements | slopeLook

/-- All of a property but its values and its mask. -/
def Spec.lookOf (p : GProp K) : PropName × PropUnit × GridParams K × Option (XF K) × Option (XF K) × String × ℤ :=
  (p.name, p.unit, p.params, p.vmin, p.vmax, p.colorMap, p.numColors)

/-- The part is the same in both grids. -/
def Spec.SamePart : Part → Shallot K → Shallot K → Prop
  | .fixed, s, s' => s'.params = s.params ∧ s'.numFxfy = s.numFxfy ∧ s'.diagnostics = s.diagnostics ∧
      s'.circularRadius = s.circularRadius ∧ s'.shear = s.shear
  | .duration, s, s' => s'.eclipseDuration = s.eclipseDuration
  | .velocity, s, s' => s'.velocity = s.velocity
  | .limb, s, s' => s'.limb = s.limb
  | .values c, s, s' => (s'.prop c).map (·.data) = (s.prop c).map (·.data)
  | .mask c, s, s' => (s'.prop c).map (·.mask) = (s.prop c).map (·.mask)
  | .look c, s, s' => (s'.prop c).map lookOf = (s.prop c).map lookOf
  | .positions, s, s' => s'.gradients.map (List.map (·.position)) = s.gradients.map (List.map (·.position))
  | .slopes, s, s' => s'.gradients.map (List.map (·.prop.data)) = s.gradients.map (List.map (·.prop.data))
  | .slopeMasks, s, s' => s'.gradients.map (List.map (·.prop.mask)) = s.gradients.map (List.map (·.prop.mask))
  | .measurements, s, s' => s'.gradients.map (List.map fun g => (g.measured, g.error, g.orbital, g.transmission)) =
      s.gradients.map (List.map fun g => (g.measured, g.error, g.orbital, g.transmission))
  | .slopeLook, s, s' => s'.gradients.map (List.map fun g => lookOf g.prop) =
      s.gradients.map (List.map fun g => lookOf g.prop)

/-- A part of the fit. -/
def Spec.OfFit (a : Part) : Prop := a = .values .gradientFit ∨ a = .mask .gradientFit ∨ a = .look .gradientFit

/-- A part of the gradients. -/
def Spec.OfGradients (a : Part) : Prop :=
  a = .positions ∨ a = .slopes ∨ a = .slopeMasks ∨ a = .measurements ∨ a = .slopeLook

/-- The parts that a call may change, whether it returns or raises. -/
def Spec.Touches : GridOp K → Part → Prop
  | .get c v w, a => a = .values c ∧ (v = .bool true ∨ w = .bool true)
  | .getFit v w, a => a = .values .gradientFit ∧ (v = .bool true ∨ w = .bool true)
  | .getGradients _ w, a => a = .slopes ∧ w = .bool true
  | .point _ _ _ v, a => (∃ c, c ≠ .gradientFit ∧ a = .values c) ∨ (a = .slopes ∧ v = .bool true)
  | .closest _ _ _ _ _, a => a = .values .diskRadius ∨ a = .values .inclination ∨ a = .values .tilt
  | .hill _, a => a = .mask .diskRadius
  | .diagnose, a => a = .values .diagnosticMap ∨ a = .mask .diagnosticMap ∨ a = .look .diagnosticMap
  | .add _ _ _ _, a => OfGradients a ∨ OfFit a
  | .remove _, a => OfGradients a ∨ OfFit a
  | .eclipse _ _ _, a => a = .duration ∨ a = .velocity ∨ a = .limb ∨ OfGradients a ∨ OfFit a
  | .update v l _, a => (a = .velocity ∧ v ≠ .none) ∨ (a = .limb ∧ l ≠ .none) ∨ a = .slopeMasks ∨
      a = .measurements ∨ OfFit a
  | .fit _, a => OfFit a
  | .extract _, a => ∃ c, a = .values c

theorem Spec.SamePart.pre (a : Part) : Pre (SamePart (K := K) a) := by
  cases a
  case fixed =>
    refine ⟨fun _ => ⟨rfl, rfl, rfl, rfl, rfl⟩, fun h k => ⟨k.1.trans h.1, k.2.1.trans h.2.1, k.2.2.1.trans h.2.2.1,
      k.2.2.2.1.trans h.2.2.2.1, k.2.2.2.2.trans h.2.2.2.2⟩⟩
  all_goals exact ⟨fun _ => rfl, fun h k => Eq.trans k h⟩

/-! ## One property, one gradient -/

theorem same_setProp (a : Part) (c : Cube) (s : Shallot K) (p q : GProp K) (hp : s.prop c = some p)
    (hd : a = .values c → q.data = p.data) (hm : a = .mask c → q.mask = p.mask)
    (hl : a = .look c → lookOf q = lookOf p) : SamePart a s (s.setProp q c) := by
  have other : ∀ c', c' ≠ c → (s.setProp q c).prop c' = s.prop c' := fun c' h => by rw [setProp_prop, if_neg h]
  have self : (s.setProp q c).prop c = some q := by rw [setProp_prop, if_pos rfl]
  cases a with
  | fixed => cases c <;> exact ⟨rfl, rfl, rfl, rfl, rfl⟩
  | values c' =>
    show ((s.setProp q c).prop c').map _ = (s.prop c').map _
    by_cases h : c' = c
    · subst h; rw [self, hp]; exact congrArg some (hd rfl)
    · rw [other c' h]
  | mask c' =>
    show ((s.setProp q c).prop c').map _ = (s.prop c').map _
    by_cases h : c' = c
    · subst h; rw [self, hp]; exact congrArg some (hm rfl)
    · rw [other c' h]
  | look c' =>
    show ((s.setProp q c).prop c').map _ = (s.prop c').map _
    by_cases h : c' = c
    · subst h; rw [self, hp]; exact congrArg some (hl rfl)
    · rw [other c' h]
  | _ => cases c <;> rfl

theorem same_onProp {α : Type} (a : Part) (c : Cube) (m : Meth (GProp K) α)
    (hd : a = .values c → ∀ p, (m p).2.data = p.data) (hm : a = .mask c → ∀ p, (m p).2.mask = p.mask)
    (hl : a = .look c → ∀ p, lookOf (m p).2 = lookOf p) : Moves (SamePart a) (Shallot.onProp c m) := by
  intro s
  unfold Shallot.onProp
  cases h : s.prop c with
  | none => exact (SamePart.pre a).refl s
  | some p => exact same_setProp a c s p _ h (fun k => hd k p) (fun k => hm k p) (fun k => hl k p)

theorem same_onGradient {α : Type} (a : Part) (k : ℕ) (m : Meth (GGrad K) α)
    (h1 : a = .positions → ∀ g, (m g).2.position = g.position)
    (h2 : a = .slopes → ∀ g, (m g).2.prop.data = g.prop.data)
    (h3 : a = .slopeMasks → ∀ g, (m g).2.prop.mask = g.prop.mask)
    (h4 : a = .measurements → ∀ g, ((m g).2.measured, (m g).2.error, (m g).2.orbital, (m g).2.transmission) =
      (g.measured, g.error, g.orbital, g.transmission))
    (h5 : a = .slopeLook → ∀ g, lookOf (m g).2.prop = lookOf g.prop) :
    Moves (SamePart a) (Shallot.onGradient k m) := by
  intro s
  unfold Shallot.onGradient
  cases hk : (s.gradients.getD [])[k]? with
  | none => exact (SamePart.pre a).refl s
  | some g =>
    obtain ⟨l, hl⟩ : ∃ l, s.gradients = some l := by
      cases hg : s.gradients with
      | none => rw [hg] at hk; cases hk
      | some l => exact ⟨l, rfl⟩
    rw [hl] at hk
    have key : ∀ {B : Type} (f : GGrad K → B), f (m g).2 = f g →
        (some (l.set k (m g).2)).map (List.map f) = s.gradients.map (List.map f) := by
      intro B f hf
      rw [hl]
      simp only [Option.map_some, Option.some.injEq, List.map_set, hf]
      apply List.ext_getElem?
      intro i
      rw [List.getElem?_set]
      split_ifs with h1 h2
      · subst h1
        rw [List.getElem?_map, show l[k]? = some g from hk]
        rfl
      · subst h1
        rw [List.getElem?_eq_none (by omega)]
      · rfl
    simp only [hl, Option.getD_some]
    cases a with
    | fixed => exact ⟨rfl, rfl, rfl, rfl, rfl⟩
    | values c => cases c <;> rfl
    | mask c => cases c <;> rfl
    | look c => cases c <;> rfl
    | positions => exact key (·.position) (h1 rfl g)
    | slopes => exact key (·.prop.data) (h2 rfl g)
    | slopeMasks => exact key (·.prop.mask) (h3 rfl g)
    | measurements => exact key (fun g => (g.measured, g.error, g.orbital, g.transmission)) (h4 rfl g)
    | slopeLook => exact key (fun g => lookOf g.prop) (h5 rfl g)
    | _ => rfl

theorem getData_parts (v : PyVal K) (p : GProp K) : (v ≠ .bool true → (GProp.getData v p).2.data = p.data) ∧
    (GProp.getData v p).2.mask = p.mask ∧ lookOf (GProp.getData v p).2 = lookOf p := by
  rcases getData_cases v p with ⟨m, h1, -, -, h⟩ | h
  · rw [h]
    exact ⟨fun k => absurd h1 k, rfl, rfl⟩
  · rw [h]
    exact ⟨fun _ => rfl, rfl, rfl⟩

theorem nanWhere_parts (m : Mask) (p : GProp K) : (Shallot.nanWhere m p).2.mask = p.mask ∧
    lookOf (Shallot.nanWhere m p).2 = lookOf p := by
  unfold Shallot.nanWhere
  rw [Meth.get_bind]
  split_ifs
  · exact ⟨rfl, rfl⟩
  · exact ⟨rfl, rfl⟩

theorem setMask_parts (v : PyVal K) (p : GProp K) : (GProp.setMask v p).2.data = p.data ∧
    lookOf (GProp.setMask v p).2 = lookOf p := by
  rcases setMask_cases v p with ⟨a, -, -, -, h⟩ | ⟨⟨e, h⟩, -⟩
  · rw [h]; exact ⟨rfl, rfl⟩
  · rw [h]; exact ⟨rfl, rfl⟩

theorem determineMask_rest (vm vo vt ve : PyVal K) (g : GGrad K) :
    (GGrad.determineMask vm vo vt ve g).2.position = g.position ∧
    (GGrad.determineMask vm vo vt ve g).2.prop.data = g.prop.data ∧
    lookOf (GGrad.determineMask vm vo vt ve g).2.prop = lookOf g.prop := by
  rcases determineMask_cases vm vo vt ve g with ⟨-, e, h⟩ | ⟨-, -, e, h⟩ | ⟨-, -, -, e, h⟩ |
    ⟨-, -, -, -, e, h⟩ | ⟨-, -, -, -, ⟨e, -, h⟩ | ⟨c, -, ⟨-, h⟩ | ⟨-, h⟩⟩⟩
  all_goals rw [h]; exact ⟨rfl, rfl, rfl⟩

/-! ## Every method -/

theorem same_getCube (a : Part) (c : Cube) (v w : PyVal K)
    (h : a = .values c → v ≠ .bool true ∧ w ≠ .bool true) : Moves (SamePart a) (Shallot.getCube c v w) := by
  have P := SamePart.pre (K := K) a
  unfold Shallot.getCube
  refine Moves.bind P (same_onProp a c _ (fun k p => (getData_parts w p).1 (h k).2) (fun _ p => (getData_parts w p).2.1)
    (fun _ p => (getData_parts w p).2.2)) fun d => ?_
  by_cases hv : v = .bool true
  · refine Moves.bind P (Moves.lift P _) fun b => ?_
    cases b with
    | false => exact Moves.pure P _
    | true =>
      refine Moves.bind P (Moves.get P) fun s => Moves.bind P (Moves.lift P _) fun m => ?_
      exact same_onProp a c _ (fun k => absurd hv (h k).1) (fun _ p => (nanWhere_parts m p).1)
        (fun _ p => (nanWhere_parts m p).2)
  · intro s
    cases hb : boolean v with
    | error e => exact P.refl s
    | ok b =>
      cases b with
      | false => exact P.refl s
      | true =>
        exfalso
        cases v with
        | bool b => cases b <;> first | exact hv rfl | cases hb
        | _ => cases hb

theorem same_gridPoint (a : Part) (y x r v : PyVal K) (h : ∀ c, c ≠ .gradientFit → a ≠ .values c)
    (h' : a = .slopes → v ≠ .bool true) : Moves (SamePart a) (Shallot.gridPoint y x r v) := by
  have P := SamePart.pre (K := K) a
  have look : ∀ c, c ≠ .gradientFit → ∀ i j k, Moves (SamePart a) (Shallot.lookup c v i j k) := by
    intro c hc i j k
    unfold Shallot.lookup
    exact Moves.bind P (same_getCube a c v _ fun hk => absurd hk (h c hc)) fun d => Moves.lift P _
  have loop : ∀ i j k n m, Moves (SamePart a) (Shallot.gradientValues v i j k n m) := by
    intro i j k n
    induction n with
    | zero =>
      intro m
      unfold Shallot.gradientValues
      exact Moves.pure P _
    | succ n ih =>
      intro m
      unfold Shallot.gradientValues
      refine Moves.bind P (Moves.get P) fun s => Moves.bind P ?_ fun d => Moves.bind P (Moves.lift P _) fun x =>
        Moves.bind P (ih _) fun _ => Moves.pure P _
      exact same_onGradient a m _ (fun _ _ => rfl) (fun k g => (getData_parts v g.prop).1 (h' k))
        (fun _ g => (getData_parts v g.prop).2.1) (fun _ _ => rfl) (fun _ g => (getData_parts v g.prop).2.2)
  unfold Shallot.gridPoint
  refine Moves.bind P (Moves.get P) fun s => Moves.bind P (Moves.lift P _) fun y => Moves.bind P (Moves.lift P _) fun x =>
    Moves.bind P (Moves.lift P _) fun r => Moves.bind P (look _ (by decide) _ _ _) fun _ =>
    Moves.bind P (look _ (by decide) _ _ _) fun _ => Moves.bind P (look _ (by decide) _ _ _) fun _ =>
    Moves.bind P (Moves.lift P _) fun _ => Moves.bind P (Moves.lift P _) fun _ => Moves.bind P (Moves.lift P _) fun _ =>
    Moves.bind P (look _ (by decide) _ _ _) fun _ => Moves.bind P (look _ (by decide) _ _ _) fun _ =>
    Moves.bind P (look _ (by decide) _ _ _) fun _ => Moves.bind P ?_ fun _ => Moves.pure P _
  unfold Shallot.gradientsAt
  refine Moves.bind P (Moves.get P) fun s => ?_
  cases s.gradients with
  | none => exact Moves.pure P _
  | some gs => exact Moves.bind P (loop _ _ _ _ _) fun _ => Moves.pure P _

theorem same_getGradients (a : Part) (v w : PyVal K) (h : a = .slopes → w ≠ .bool true) :
    Moves (SamePart a) (Shallot.getGradients v w) := by
  have P := SamePart.pre (K := K) a
  have loop : ∀ m n k, Moves (SamePart a) (Shallot.gradientLoop m w n k) := by
    intro m n
    induction n with
    | zero =>
      intro k
      unfold Shallot.gradientLoop
      exact Moves.pure P _
    | succ n ih =>
      intro k
      unfold Shallot.gradientLoop
      refine Moves.bind P (Moves.get P) fun s => ?_
      cases (s.gradients.getD [])[k]? with
      | none => exact Moves.pure P _
      | some g =>
        refine Moves.bind P (Moves.lift P _) fun s => Moves.bind P ?_ fun d => Moves.bind P (ih _) fun _ => Moves.pure P _
        exact same_onGradient a k _ (fun _ _ => rfl) (fun k g => (getData_parts w g.prop).1 (h k))
          (fun _ g => (getData_parts w g.prop).2.1) (fun _ _ => rfl) (fun _ g => (getData_parts w g.prop).2.2)
  unfold Shallot.getGradients
  refine Moves.bind P (Moves.get P) fun s => ?_
  cases s.gradients with
  | none => exact Moves.throw P _
  | some l =>
    exact Moves.bind P (Moves.lift P _) fun b => Moves.bind P (Moves.lift P _) fun m => loop m _ _

theorem same_resetFit (a : Part) (h : ¬ OfFit a) : Moves (SamePart a) (Shallot.resetFit (K := K)) := by
  intro s
  unfold Shallot.resetFit
  rw [Meth.modify_apply]
  cases a with
  | fixed => exact ⟨rfl, rfl, rfl, rfl, rfl⟩
  | values c => cases c <;> first | rfl | exact absurd (Or.inl rfl) h
  | mask c => cases c <;> first | rfl | exact absurd (Or.inr (Or.inl rfl)) h
  | look c => cases c <;> first | rfl | exact absurd (Or.inr (Or.inr rfl)) h
  | _ => rfl

/-- A grid with other gradients. -/
theorem same_gradients (a : Part) (h : ¬ OfGradients a) (s : Shallot K) (gs : Option (List (GGrad K))) :
    SamePart a s { s with gradients := gs } := by
  cases a with
  | fixed => exact ⟨rfl, rfl, rfl, rfl, rfl⟩
  | values c => cases c <;> rfl
  | mask c => cases c <;> rfl
  | look c => cases c <;> rfl
  | positions => exact absurd (Or.inl rfl) h
  | slopes => exact absurd (Or.inr (Or.inl rfl)) h
  | slopeMasks => exact absurd (Or.inr (Or.inr (Or.inl rfl))) h
  | measurements => exact absurd (Or.inr (Or.inr (Or.inr (Or.inl rfl)))) h
  | slopeLook => exact absurd (Or.inr (Or.inr (Or.inr (Or.inr rfl)))) h
  | _ => rfl

/-- A grid with another fit. -/
theorem same_fit (a : Part) (h : ¬ OfFit a) (s : Shallot K) (p : Option (GProp K)) :
    SamePart a s { s with gradientFit := p } := by
  cases a with
  | fixed => exact ⟨rfl, rfl, rfl, rfl, rfl⟩
  | values c => cases c <;> first | rfl | exact absurd (Or.inl rfl) h
  | mask c => cases c <;> first | rfl | exact absurd (Or.inr (Or.inl rfl)) h
  | look c => cases c <;> first | rfl | exact absurd (Or.inr (Or.inr rfl)) h
  | _ => rfl

theorem same_add (a : Part) (t l e r : PyVal K) (h : ¬ OfGradients a) (h' : ¬ OfFit a) :
    Moves (SamePart a) (Shallot.addGradients t l e r) := by
  have P := SamePart.pre (K := K) a
  have grad : ∀ {α : Type} (k : ℕ) (m : Meth (GGrad K) α), Moves (SamePart a) (Shallot.onGradient k m) := by
    intro α k m s
    unfold Shallot.onGradient
    cases (s.gradients.getD [])[k]? with
    | none => exact P.refl s
    | some g => exact same_gradients a h s _
  have app : ∀ ps : List (XF K), Moves (SamePart a) (Shallot.appendGradients ps) := by
    intro ps
    induction ps with
    | nil =>
      unfold Shallot.appendGradients
      exact Moves.pure P _
    | cons p ps ih =>
      unfold Shallot.appendGradients
      refine Moves.get_bind fun s => ?_
      cases GGrad.new (.arr ⟨"float64", (s.gradientCube p).shape, (s.gradientCube p).data⟩) s.params
        (.npFloat .w64 p) with
      | error e => exact P.refl s
      | ok g =>
        rw [Meth.lift_ok_bind, bind_ok _ _ _ _ () (Meth.set_apply _ _)]
        exact P.trans (same_gradients a h s _) (ih _)
  have loop : ∀ (scale : PyVal K) (ms : List (XF K × XF K × XF K)) (k : ℕ),
      Moves (SamePart a) (Shallot.measureLoop scale k ms) := by
    intro scale ms
    induction ms with
    | nil =>
      intro k
      unfold Shallot.measureLoop
      exact Moves.pure P _
    | cons q ms ih =>
      intro k
      obtain ⟨m, e, t⟩ := q
      unfold Shallot.measureLoop
      refine Moves.bind P (Moves.get P) fun s => ?_
      split_ifs
      · exact Moves.bind P (grad _ _) fun _ => ih _
      · exact Moves.pure P _
  unfold Shallot.addGradients
  refine Moves.bind P (Moves.get P) fun s => ?_
  split_ifs
  · refine Moves.bind P (Moves.lift P _) fun t => Moves.bind P (Moves.lift P _) fun l =>
      Moves.bind P (Moves.lift P _) fun _ => Moves.bind P (Moves.lift P _) fun d => Moves.bind P ?_ fun _ =>
      Moves.bind P ?_ fun _ => same_resetFit a h'
    · unfold Shallot.determineDiskGradients
      exact Moves.bind P (Moves.lift P _) fun _ => Moves.bind P (Moves.modify fun s => same_gradients a h s _) fun _ =>
        app _
    · unfold Shallot.setMeasured
      exact Moves.bind P (Moves.lift P _) fun _ => Moves.bind P (Moves.lift P _) fun _ =>
        Moves.bind P (Moves.lift P _) fun _ => Moves.bind P (Moves.get P) fun _ =>
        Moves.bind P (Moves.lift P _) fun _ => loop _ _ _
  · exact Moves.pure P _

theorem same_remove (a : Part) (v : PyVal K) (h : ¬ OfGradients a) (h' : ¬ OfFit a) :
    Moves (SamePart a) (Shallot.removeGradients v) := by
  have P := SamePart.pre (K := K) a
  have loop : ∀ is : List ℤ, Moves (SamePart a) (Shallot.removeLoop (K := K) is) := by
    intro is
    induction is with
    | nil =>
      unfold Shallot.removeLoop
      exact Moves.pure P _
    | cons i is ih =>
      unfold Shallot.removeLoop
      refine Moves.get_bind fun s => ?_
      by_cases hb : 0 ≤ i ∧ i < ((s.gradients.getD []).length : ℤ)
      · rw [if_pos hb]
        rw [bind_ok _ _ _ _ () (Meth.set_apply _ _)]
        exact P.trans (same_gradients a h s _) (ih _)
      · rw [if_neg hb]
        exact P.refl s
  unfold Shallot.removeGradients
  refine Moves.bind P (Moves.get P) fun s => ?_
  cases s.gradients with
  | none => exact Moves.pure P _
  | some l =>
    exact Moves.bind P (Moves.lift P _) fun _ => Moves.bind P (loop _) fun _ => same_resetFit a h'

theorem same_eclipse (a : Part) (d v u : PyVal K) (h1 : a ≠ .duration) (h2 : a ≠ .velocity) (h3 : a ≠ .limb)
    (h : ¬ OfGradients a) (h' : ¬ OfFit a) : Moves (SamePart a) (Shallot.setEclipseParameters d v u) := by
  have P := SamePart.pre (K := K) a
  have e1 : ∀ (s : Shallot K) x, SamePart a s { s with eclipseDuration := x } := by
    intro s x
    cases a with
    | fixed => exact ⟨rfl, rfl, rfl, rfl, rfl⟩
    | duration => exact absurd rfl h1
    | values c => cases c <;> rfl
    | mask c => cases c <;> rfl
    | look c => cases c <;> rfl
    | _ => rfl
  have e2 : ∀ (s : Shallot K) x, SamePart a s { s with velocity := x } := by
    intro s x
    cases a with
    | fixed => exact ⟨rfl, rfl, rfl, rfl, rfl⟩
    | velocity => exact absurd rfl h2
    | values c => cases c <;> rfl
    | mask c => cases c <;> rfl
    | look c => cases c <;> rfl
    | _ => rfl
  have e3 : ∀ (s : Shallot K) x, SamePart a s { s with limb := x } := by
    intro s x
    cases a with
    | fixed => exact ⟨rfl, rfl, rfl, rfl, rfl⟩
    | limb => exact absurd rfl h3
    | values c => cases c <;> rfl
    | mask c => cases c <;> rfl
    | look c => cases c <;> rfl
    | _ => rfl
  unfold Shallot.setEclipseParameters
  refine Moves.bind P ?_ fun _ => Moves.bind P (Moves.get P) fun s => ?_
  · unfold Shallot.storeEclipse
    exact Moves.bind P (Moves.lift P _) fun _ => Moves.bind P (Moves.modify fun s => e1 s _) fun _ =>
      Moves.bind P (Moves.lift P _) fun _ => Moves.bind P (Moves.modify fun s => e2 s _) fun _ =>
      Moves.bind P (Moves.lift P _) fun _ => Moves.modify fun s => e3 s _
  · cases s.gradients with
    | none => exact Moves.pure P _
    | some l => exact Moves.bind P (Moves.modify fun s => same_gradients a h s _) fun _ => same_resetFit a h'

theorem same_update (a : Part) (v u t : PyVal K) (h1 : a = .velocity → v = .none) (h2 : a = .limb → u = .none)
    (h3 : a ≠ .slopeMasks) (h4 : a ≠ .measurements) (h : ¬ OfFit a) :
    Moves (SamePart a) (Shallot.updateScaling v u t) := by
  have P := SamePart.pre (K := K) a
  have store : ∀ s : Shallot K, SamePart a s (Shallot.storeScaling v u s) := by
    intro s
    unfold Shallot.storeScaling
    cases a with
    | fixed => exact ⟨rfl, rfl, rfl, rfl, rfl⟩
    | velocity => exact if_pos (h1 rfl)
    | limb => exact if_pos (h2 rfl)
    | values c => cases c <;> rfl
    | mask c => cases c <;> rfl
    | look c => cases c <;> rfl
    | _ => rfl
  have loop : ∀ (b : Bool) (ts : Option (List (XF K))) (n k : ℕ), Moves (SamePart a) (Shallot.rescaleLoop b ts n k) := by
    intro b ts n
    induction n with
    | zero =>
      intro k
      unfold Shallot.rescaleLoop
      exact Moves.pure P _
    | succ n ih =>
      intro k
      unfold Shallot.rescaleLoop
      refine Moves.bind P (Moves.get P) fun s => ?_
      cases (s.gradients.getD [])[k]? with
      | none => exact Moves.pure P _
      | some g =>
        refine Moves.bind P (Moves.lift P _) fun scale => ?_
        refine Moves.bind P ?_ fun _ => ih _
        exact same_onGradient a k _ (fun _ g => (determineMask_rest _ _ _ _ g).1)
          (fun _ g => (determineMask_rest _ _ _ _ g).2.1) (fun k => absurd k h3) (fun k => absurd k h4)
          (fun _ g => (determineMask_rest _ _ _ _ g).2.2)
  unfold Shallot.updateScaling
  refine Moves.bind P (Moves.modify store) fun _ => Moves.bind P (Moves.get P) fun s =>
    Moves.bind P (Moves.lift P _) fun ts => ?_
  split_ifs
  · exact Moves.pure P _
  · cases s.gradients with
    | none => exact Moves.throw P _
    | some l => exact Moves.bind P (loop _ _ _ _) fun _ => same_resetFit a h

theorem same_determineFit (a : Part) (w : Bool) (h : ¬ OfFit a) : Moves (SamePart a) (Shallot.determineFit (K := K) w) := by
  have P := SamePart.pre (K := K) a
  unfold Shallot.determineFit
  refine Moves.bind P (Moves.get P) fun s => ?_
  cases s.gradients with
  | none => exact Moves.pure P _
  | some gs =>
    exact Moves.bind P (Moves.lift P _) fun d => Moves.bind P (Moves.lift P _) fun p =>
      Moves.bind P (Moves.modify fun s => same_fit a h s _) fun _ =>
      same_onProp a .gradientFit _ (fun k => absurd (Or.inl k) h) (fun k => absurd (Or.inr (Or.inl k)) h)
        (fun k => absurd (Or.inr (Or.inr k)) h)

theorem same_solution (a : Part) (h : ∀ c, a ≠ .values c) : Moves (SamePart a) (Shallot.solution (K := K)) := by
  have P := SamePart.pre (K := K) a
  unfold Shallot.solution
  refine Moves.bind P (Moves.get P) fun s => ?_
  cases s.gradientFit with
  | none => exact Moves.throw P _
  | some f =>
    refine Moves.bind P (Moves.lift P _) fun i => ?_
    refine Moves.bind P (same_gridPoint a _ _ _ _ (fun c _ => h c) (fun _ => by simp)) fun p => Moves.bind P ?_ fun _ =>
      Moves.pure P _
    exact same_onProp a .gradientFit _ (fun k => absurd k (h _)) (fun _ _ => rfl) (fun _ _ => rfl)

theorem same_extract (a : Part) (n : PyVal K) (h : ∀ c, a ≠ .values c) :
    Moves (SamePart a) (Shallot.extractSolutions n) := by
  have P := SamePart.pre (K := K) a
  have one := same_solution (K := K) a h
  have loop : ∀ n, Moves (SamePart a) (Shallot.solutionLoop (K := K) n) := by
    intro n
    induction n with
    | zero =>
      unfold Shallot.solutionLoop
      exact Moves.pure P _
    | succ n ih =>
      unfold Shallot.solutionLoop
      exact Moves.bind P one fun _ => Moves.bind P ih fun _ => Moves.pure P _
  unfold Shallot.extractSolutions
  refine Moves.bind P (Moves.get P) fun s => Moves.bind P (Moves.lift P _) fun m => Moves.bind P (Moves.lift P _) fun n =>
    Moves.bind P ?_ fun _ => loop n
  unfold Shallot.getGradientFit
  refine Moves.bind P (Moves.get P) fun s => ?_
  split_ifs
  · exact Moves.pure P _
  · exact Moves.bind P (same_getCube a _ _ _ fun k => absurd k (h _)) fun _ => Moves.pure P _

/-- **C132.** A call changes only the parts that belong to it, whether it returns or raises. -/
theorem C132_frame (op : GridOp K) (s : Shallot K) (a : Part) (h : ¬ Touches op a) : SamePart a s (op.exec s) := by
  have P := SamePart.pre (K := K) a
  cases op with
  | get c v w => exact same_getCube a c v w (fun k => ⟨fun e => h ⟨k, Or.inl e⟩, fun e => h ⟨k, Or.inr e⟩⟩) s
  | getFit v w =>
    have : Moves (SamePart a) (Shallot.getGradientFit v w) := by
      unfold Shallot.getGradientFit
      refine Moves.bind P (Moves.get P) fun s => ?_
      split_ifs
      · exact Moves.pure P _
      · exact Moves.bind P (same_getCube a _ v w fun k => ⟨fun e => h ⟨k, Or.inl e⟩, fun e => h ⟨k, Or.inr e⟩⟩)
          fun _ => Moves.pure P _
    exact this s
  | getGradients v w => exact same_getGradients a v w (fun k e => h ⟨k, e⟩) s
  | point y x r v =>
    exact same_gridPoint a y x r v (fun c hc k => h (Or.inl ⟨c, hc, k⟩)) (fun k e => h (Or.inr ⟨k, e⟩)) s
  | closest r i t b v =>
    have : Moves (SamePart a) (Shallot.closestPoint r i t b v) := by
      unfold Shallot.closestPoint
      exact Moves.bind P (Moves.lift P _) fun _ => Moves.bind P (Moves.lift P _) fun _ =>
        Moves.bind P (Moves.lift P _) fun _ => Moves.bind P (Moves.lift P _) fun _ =>
        Moves.bind P (Moves.lift P _) fun _ =>
        Moves.bind P (same_getCube a _ _ _ fun k => absurd (Or.inl k) h) fun _ =>
        Moves.bind P (same_getCube a _ _ _ fun k => absurd (Or.inr (Or.inl k)) h) fun _ =>
        Moves.bind P (same_getCube a _ _ _ fun k => absurd (Or.inr (Or.inr k)) h) fun _ =>
        Moves.bind P (Moves.get P) fun _ => Moves.lift P _
    exact this s
  | hill v =>
    have : Moves (SamePart a) (Shallot.hillMask v) := by
      unfold Shallot.hillMask
      exact Moves.bind P (Moves.lift P _) fun _ => Moves.bind P (Moves.get P) fun _ =>
        same_onProp a _ _ (fun _ p => (setMask_parts _ p).1) (fun k => absurd k h) (fun _ p => (setMask_parts _ p).2)
    exact this s
  | diagnose =>
    have put : ∀ (s : Shallot K) p, SamePart a s { s with diagnosticMap := some p } := by
      intro s p
      cases a with
      | fixed => exact ⟨rfl, rfl, rfl, rfl, rfl⟩
      | values c => cases c <;> first | rfl | exact absurd (Or.inl rfl) h
      | mask c => cases c <;> first | rfl | exact absurd (Or.inr (Or.inl rfl)) h
      | look c => cases c <;> first | rfl | exact absurd (Or.inr (Or.inr rfl)) h
      | _ => rfl
    have : Moves (SamePart a) (Shallot.diagnose (K := K)) := by
      unfold Shallot.diagnose
      exact Moves.bind P (Moves.get P) fun _ => Moves.bind P (Moves.lift P _) fun _ => Moves.modify fun s => put s _
    exact this s
  | add t l e r => exact same_add a t l e r (fun k => h (Or.inl k)) (fun k => h (Or.inr k)) s
  | remove v => exact same_remove a v (fun k => h (Or.inl k)) (fun k => h (Or.inr k)) s
  | eclipse d v u =>
    exact same_eclipse a d v u (fun k => h (Or.inl k)) (fun k => h (Or.inr (Or.inl k)))
      (fun k => h (Or.inr (Or.inr (Or.inl k)))) (fun k => h (Or.inr (Or.inr (Or.inr (Or.inl k)))))
      (fun k => h (Or.inr (Or.inr (Or.inr (Or.inr k))))) s
  | update v u t =>
    exact same_update a v u t (fun k => by_contra fun e => h (Or.inl ⟨k, e⟩))
      (fun k => by_contra fun e => h (Or.inr (Or.inl ⟨k, e⟩))) (fun k => h (Or.inr (Or.inr (Or.inl k))))
      (fun k => h (Or.inr (Or.inr (Or.inr (Or.inl k))))) (fun k => h (Or.inr (Or.inr (Or.inr (Or.inr k))))) s
  | fit w => exact same_determineFit a w h s
  | extract n => exact same_extract a n (fun c k => h ⟨c, k⟩) s

/-- **C132** for histories: a part that no call of a history may change is the same at its end. -/
theorem C132_history (ops : List (GridOp K)) (s : Shallot K) (a : Part) (h : ∀ op ∈ ops, ¬ Touches op a) :
    SamePart a s (runGrid ops s) := by
  induction ops generalizing s with
  | nil => exact (SamePart.pre a).refl s
  | cons op ops ih =>
    exact (SamePart.pre a).trans (C132_frame op s a (h op (by simp))) (ih _ fun o ho => h o (by simp [ho]))

/-- What is fixed when a grid is built stays so; neither do the looks of its properties change, but for those of the
diagnostic map and of the fit, which are made anew. -/
theorem C132_fixed (ops : List (GridOp K)) (s : Shallot K) : SamePart .fixed s (runGrid ops s) ∧
    ∀ c, c ≠ .diagnosticMap → c ≠ .gradientFit → SamePart (.look c) s (runGrid ops s) := by
  constructor
  · refine C132_history ops s _ fun op _ => ?_
    cases op <;> simp [Touches, OfFit, OfGradients]
  · intro c h1 h2
    refine C132_history ops s _ fun op _ => ?_
    cases op <;> simp [Touches, OfFit, OfGradients, h1, h2]

end

/-- The table is not too generous: each of these calls, on a grid that was made by the code, does change the part. -/
theorem C132_tight :
    (∃ s : Shallot ℝ, Sound s ∧ ¬ SamePart (.values .diskRadius) s
      (GridOp.exec (.get .diskRadius (.bool true) (.bool true)) s)) ∧
    (∃ s : Shallot ℝ, Sound s ∧ ¬ SamePart (.mask .diskRadius) s (GridOp.exec (.hill (.int 0)) s)) ∧
    (∃ s : Shallot ℝ, Sound s ∧ ¬ SamePart .duration s (GridOp.exec (.eclipse (.int 1) (.int 1) (.int 0)) s)) ∧
    (∃ s : Shallot ℝ, Sound s ∧ ∀ a, OfFit a → ¬ SamePart a s (GridOp.exec (.fit true) s)) ∧
    ∃ s : Shallot ℝ, Sound s ∧ ∀ a, OfFit a ∨ a = .positions →
      ¬ SamePart a s (GridOp.exec (.remove (positions [0, 0])) s) := by
  refine ⟨?_, ?_, ?_, ?_, ?_⟩
  · obtain ⟨s₀, R, h1, hR, h2, h3⟩ := C43_false_witness
    have hs : Sound s₀ := by
      obtain ⟨s, k, hs, -⟩ := throwAway_sound
      rw [h1] at k
      cases k
      exact hs
    refine ⟨GridOp.exec (.hill (.int 0)) s₀, exec_sound _ s₀ hs, fun h => ?_⟩
    have h0 : (GridOp.exec (.hill (.int 0)) s₀).diskRadius.data = s₀.diskRadius.data :=
      Option.some.inj (C132_frame (.hill (.int 0)) s₀ (.values .diskRadius) (by simp [Touches]))
    have h : (runGrid [.hill (.int 0), .get .diskRadius (.bool true) (.bool true)] s₀).diskRadius.data =
      (GridOp.exec (.hill (.int 0)) s₀).diskRadius.data := Option.some.inj h
    rw [h, h0, h2] at h3
    cases h3
  · obtain ⟨s, -, hs, -, ⟨hm, -⟩, -⟩ := throwAway_sound
    obtain ⟨m, he, -⟩ := (C44_exact s (.int 0)).1 (.fin 0) (Or.inl ⟨0, .int 0, by simp⟩) (by rw [less_iff]; simp)
    refine ⟨s, hs, fun k => ?_⟩
    have e : GridOp.exec (.hill (.int 0)) s = _ := congrArg Prod.snd he
    rw [e] at k
    have k : some m = s.diskRadius.mask := Option.some.inj k
    rw [hm] at k
    cases k
  · obtain ⟨s, d, -, h2, -⟩ := throwAway_disk
    have hs := sound_complete h2
    have h0 : NotNegative (K := ℝ) (.int 1) := ⟨_, int_isNumber 1, by rw [less_iff]; simp⟩
    have hf : Fraction (K := ℝ) (.int 0) := ⟨_, int_isNumber 0, by rw [less_iff]; simp, by rw [less_iff]; simp⟩
    have he := (C49_partial s (fun _ => h2.nothing.2.1) (.int 1) (.int 1) (.int 0)).1 ⟨h0, h0, hf⟩
    refine ⟨s, hs, fun k => ?_⟩
    have e : GridOp.exec (.eclipse (.int 1) (.int 1) (.int 0)) s = _ := congrArg Prod.snd he
    rw [e] at k
    have k : some _ = s.eclipseDuration := k
    rw [h2.nothing.2.2.1] at k
    cases k
  · obtain ⟨s₁, s₂, hs, hf, h, -, -, -, -, p, hp⟩ := throwAway_fit
    refine ⟨s₁, hs, fun a ha k => ?_⟩
    have e : GridOp.exec (.fit true) s₁ = s₂ := congrArg Prod.snd h
    rw [e] at k
    rcases ha with rfl | rfl | rfl <;>
    · simp only [SamePart, Shallot.prop, hf, hp, Option.map_some, Option.map_none] at k
      cases k
  · obtain ⟨-, s₂, -, -, -, hs, -, -, ⟨l, hl, hl2⟩, p, hp⟩ := throwAway_fit
    refine ⟨s₂, hs, fun a ha k => ?_⟩
    have e : GridOp.exec (.remove (positions [0, 0])) s₂ = _ := congrArg Prod.snd (C40_false s₂ l hl 0 (by omega))
    rw [e] at k
    rcases ha with (rfl | rfl | rfl) | rfl
    iterate 3
      simp only [SamePart, Shallot.prop, hp, Option.map_some, Option.map_none] at k
      cases k
    simp only [SamePart, hl, Option.map_some, Option.some.injEq] at k
    have := congrArg List.length k
    simp only [List.length_map, List.length_append, List.length_take, List.length_drop] at this
    omega

end Beyonce
