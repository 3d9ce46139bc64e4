import Verif.Props.Exceptions

/-!
# Property C141: the Hill radius can be set before or after the measurements
-/

set_option linter.unusedSectionVars false

namespace Beyonce
open Spec

section
variable {K : Type} [Field K] [LinearOrder K] [IsStrictOrderedRing K] [RealFns K] [FloorRing K]

/-- The grid with another mask of the disk radius. -/
def Spec.withMask (m : Option Mask) (s : Shallot K) : Shallot K :=
  { s with diskRadius := { s.diskRadius with mask := m } }

/-- A call that neither reads nor writes the mask of the disk radius. -/
def Spec.Blind {α : Type} (x : Meth (Shallot K) α) : Prop :=
  ∀ m s, x (withMask m s) = ((x s).1, withMask m (x s).2)

theorem Spec.Blind.pure {α : Type} (a : α) : Blind (pure a : Meth (Shallot K) α) := fun _ _ => rfl

theorem Spec.Blind.throw {α : Type} (e : Err) : Blind (Meth.throw e : Meth (Shallot K) α) := fun _ _ => rfl

theorem Spec.Blind.lift {α : Type} (x : Except Err α) : Blind (Meth.lift x : Meth (Shallot K) α) := fun _ _ => rfl

theorem Spec.Blind.modify (f : Shallot K → Shallot K) (h : ∀ m s, f (withMask m s) = withMask m (f s)) :
    Blind (Meth.modify f) := fun m s => by
  rw [Meth.modify_apply, Meth.modify_apply, h]

theorem Spec.Blind.bind {α β : Type} {x : Meth (Shallot K) α} {f : α → Meth (Shallot K) β} (hx : Blind x)
    (hf : ∀ a, Blind (f a)) : Blind (x >>= f) := fun m s => by
  rw [Meth.bind_apply, Meth.bind_apply, hx m s]
  rcases x s with ⟨_ | a, s'⟩
  · rfl
  · exact hf a m s'

theorem Spec.Blind.get {β : Type} {f : Shallot K → Meth (Shallot K) β} (h : ∀ m s, f (withMask m s) = f s)
    (hf : ∀ s, Blind (f s)) : Blind (Meth.get >>= f) := fun m s => by
  rw [Meth.get_bind, Meth.get_bind, h, hf s m s]

theorem Spec.Blind.ite {α : Type} {p : Prop} [Decidable p] {x y : Meth (Shallot K) α} (hx : Blind x) (hy : Blind y) :
    Blind (if p then x else y) := by
  split_ifs
  · exact hx
  · exact hy

theorem Spec.Blind.onGradient {α : Type} (k : ℕ) (x : Meth (GGrad K) α) : Blind (Shallot.onGradient k x) := fun m s => by
  unfold Shallot.onGradient
  show (match (s.gradients.getD [])[k]? with
    | none => _
    | some g => _) = _
  cases (s.gradients.getD [])[k]? <;> rfl

theorem resetFit_blind : Blind (Shallot.resetFit (K := K)) := .modify _ fun _ _ => rfl

theorem removeLoop_blind : ∀ is : List ℤ, Blind (Shallot.removeLoop (K := K) is)
  | [] => .pure _
  | i :: is => fun m s => by
    have ih := removeLoop_blind is
    unfold Shallot.removeLoop
    rw [Meth.get_bind, Meth.get_bind]
    show (if 0 ≤ i ∧ i < (s.gradients.getD []).length then _ else _ : Meth (Shallot K) Unit) _ = _
    by_cases h : 0 ≤ i ∧ i < (s.gradients.getD []).length
    · rw [if_pos h, if_pos h, Meth.bind_apply, Meth.bind_apply, Meth.set_apply, Meth.set_apply]
      exact ih m { s with gradients := some ((s.gradients.getD []).eraseIdx i.toNat) }
    · rw [if_neg h, if_neg h]
      rfl

theorem remove_blind (v : PyVal K) : Blind (Shallot.removeGradients v) := by
  refine .get (fun _ _ => rfl) fun s => ?_
  cases s.gradients with
  | none => exact .pure _
  | some l => exact .bind (.lift _) fun a => .bind (removeLoop_blind _) fun _ => resetFit_blind

theorem eclipse_blind (d v u : PyVal K) : Blind (Shallot.setEclipseParameters d v u) := by
  refine .bind ?_ fun _ => .get (fun _ _ => rfl) fun s => ?_
  · exact .bind (.lift _) fun _ => .bind (.modify _ fun _ _ => rfl) fun _ => .bind (.lift _) fun _ =>
      .bind (.modify _ fun _ _ => rfl) fun _ => .bind (.lift _) fun _ => .modify _ fun _ _ => rfl
  · cases s.gradients with
    | none => exact .pure _
    | some l => exact .bind (.modify _ fun _ _ => rfl) fun _ => resetFit_blind

theorem append_cons (p : XF K) (ps : List (XF K)) (s : Shallot K) : Shallot.appendGradients (p :: ps) s =
    match GGrad.new (.arr ⟨"float64", (s.gradientCube p).shape, (s.gradientCube p).data⟩) s.params
      (.npFloat .w64 p) with
    | .error e => (.error e, s)
    | .ok g => Shallot.appendGradients ps { s with gradients := some (s.gradients.getD [] ++ [g]) } := by
  rw [Shallot.appendGradients, Meth.get_bind]
  cases GGrad.new (.arr ⟨"float64", (s.gradientCube p).shape, (s.gradientCube p).data⟩) s.params
      (.npFloat .w64 p) <;> rfl

theorem append_blind : ∀ ps : List (XF K), Blind (Shallot.appendGradients ps)
  | [] => .pure _
  | p :: ps => fun m s => by
    have ih := append_blind ps
    rw [append_cons, append_cons, show (withMask m s).gradientCube p = s.gradientCube p from rfl,
      show (withMask m s).params = s.params from rfl]
    cases GGrad.new (.arr ⟨"float64", (s.gradientCube p).shape, (s.gradientCube p).data⟩) s.params
      (.npFloat .w64 p) with
    | error e => rfl
    | ok g => exact ih m { s with gradients := some (s.gradients.getD [] ++ [g]) }

theorem measureLoop_blind (scale : PyVal K) : ∀ (l : List (XF K × XF K × XF K)) (k : ℕ),
    Blind (Shallot.measureLoop scale k l)
  | [], k => .pure _
  | (a, e, t) :: l, k => by
    unfold Shallot.measureLoop
    exact .get (fun _ _ => rfl) fun s => .ite (.bind (.onGradient _ _) fun _ => measureLoop_blind scale l (k + 1))
      (.pure _)

theorem setMeasured_blind (lc : NpArr K) (e t : PyVal K) : Blind (Shallot.setMeasured lc e t) :=
  .bind (.lift _) fun _ => .bind (.lift _) fun _ => .bind (.lift _) fun _ => .get (fun _ _ => rfl) fun _ =>
    .bind (.lift _) fun _ => measureLoop_blind _ _ _

theorem add_blind (t l e r : PyVal K) : Blind (Shallot.addGradients t l e r) :=
  .get (fun _ _ => rfl) fun _ => .ite (.bind (.lift _) fun _ => .bind (.lift _) fun _ => .bind (.lift _) fun _ =>
    .bind (.lift _) fun _ => .bind (.bind (.lift _) fun _ => .bind (.modify _ fun _ _ => rfl) fun _ =>
      append_blind _) fun _ => .bind (setMeasured_blind _ _ _) fun _ => resetFit_blind) (.pure _)

theorem rescaleLoop_blind (b : Bool) (t : Option (List (XF K))) : ∀ n k : ℕ,
    Blind (Shallot.rescaleLoop (K := K) b t n k)
  | 0, k => .pure _
  | n + 1, k => by
    unfold Shallot.rescaleLoop
    refine .get (fun _ _ => rfl) fun s => ?_
    cases (s.gradients.getD [])[k]? with
    | none => exact .pure _
    | some g => exact .bind (.lift _) fun _ => .bind (.onGradient _ _) fun _ => rescaleLoop_blind b t n (k + 1)

theorem update_blind (v u t : PyVal K) : Blind (Shallot.updateScaling v u t) := by
  refine .bind (.modify _ fun _ _ => rfl) fun _ => .get (fun _ _ => rfl) fun s => .bind (.lift _) fun t =>
    .ite (.pure _) ?_
  cases s.gradients with
  | none => exact .throw _
  | some l => exact .bind (rescaleLoop_blind _ _ _ _) fun _ => resetFit_blind

theorem onFit_blind {α : Type} (x : Meth (GProp K) α) : Blind (Shallot.onProp .gradientFit x) := fun m s => by
  have h : ∀ t : Shallot K, Shallot.onProp .gradientFit x t = match t.gradientFit with
    | none => (.error .attributeError, t)
    | some p => ((x p).1, { t with gradientFit := some (x p).2 }) := fun t => rfl
  rw [h, h, show (withMask m s).gradientFit = s.gradientFit from rfl]
  cases s.gradientFit <;> rfl

theorem fit_blind (w : Bool) : Blind (Shallot.determineFit (K := K) w) := by
  refine .get (fun _ _ => rfl) fun s => ?_
  cases s.gradients with
  | none => exact .pure _
  | some l => exact .bind (.lift _) fun _ => .bind (.lift _) fun _ => .bind (.modify _ fun _ _ => rfl) fun _ =>
      onFit_blind _

theorem diagnose_blind : Blind (Shallot.diagnose (K := K)) :=
  .get (fun _ _ => rfl) fun _ => .bind (.lift _) fun _ => .modify _ fun _ _ => rfl

/-- Either the Hill radius is accepted, and the mask is made from the stored disk radii; or nothing happens. -/
theorem hill_forms (v : PyVal K) :
    (NotNegative v ∧ ∀ s : Shallot K, Shallot.hillMask v s = (.ok (), withMask (some ⟨s.diskRadius.data.shape,
      s.diskRadius.data.data.map fun x => Shallot.hillAt v.num x⟩) s)) ∨
    (¬ NotNegative v ∧ ∃ e, ∀ s : Shallot K, Shallot.hillMask v s = (.error e, s)) := by
  rcases notNeg_float v with ⟨h1, h2⟩ | ⟨e, h1, h2⟩
  · refine Or.inl ⟨h2, fun s => ?_⟩
    unfold Shallot.hillMask
    rw [h1, Meth.lift_ok_bind]
    simp only [Meth.get_bind]
    unfold Shallot.onProp
    simp only [Shallot.prop]
    rcases setMask_cases (.arr ⟨"bool", s.diskRadius.data.shape,
      s.diskRadius.data.data.map fun x => .fin (if Shallot.hillAt v.num x = true then 1 else 0)⟩)
      s.diskRadius with ⟨a, e1, -, -, e2⟩ | ⟨-, hno⟩
    · rw [e2]
      obtain rfl : _ = a := by simpa using e1
      simp only [Shallot.setProp, NpArr.toMask, List.map_map]
      have hfun : ((fun x : XF K => decide (x ≠ XF.fin 0)) ∘ fun x =>
          XF.fin (if Shallot.hillAt v.num x = true then 1 else 0)) = fun x => Shallot.hillAt v.num x := by
        funext x
        cases hb : Shallot.hillAt v.num x <;> simp [hb]
      rw [hfun]
      rfl
    · exact absurd ⟨_, rfl, rfl, rfl⟩ hno
  · refine Or.inr ⟨h2, e, fun s => ?_⟩
    unfold Shallot.hillMask
    rw [h1]
    rfl

/-- The number of gradients. -/
def Spec.howManyGradients (s : Shallot K) : ℕ := (s.gradients.getD []).length

/-- The calls that set up an analysis without reading the grid. -/
def Spec.SetsUp : GridOp K → Prop
  | .add _ _ _ _ | .remove _ | .eclipse _ _ _ | .update _ _ _ | .fit _ | .diagnose => True
  | _ => False

theorem blind_both {α : Type} {x : Meth (Shallot K) α} (h : Blind x) (m : Option Mask) (s : Shallot K) :
    (x (withMask m s)).2 = withMask m (x s).2 ∧
    GridOp.raised.failure (x (withMask m s)).1 = GridOp.raised.failure (x s).1 := by
  rw [h m s]
  exact ⟨rfl, rfl⟩

theorem setsUp_blind (op : GridOp K) (h : SetsUp op) (m : Option Mask) (s : Shallot K) :
    op.exec (withMask m s) = withMask m (op.exec s) ∧ op.raised (withMask m s) = op.raised s := by
  cases op <;> first | exact absurd h id | skip
  · exact blind_both diagnose_blind m s
  · exact blind_both (add_blind _ _ _ _) m s
  · exact blind_both (remove_blind _) m s
  · exact blind_both (eclipse_blind _ _ _) m s
  · exact blind_both (update_blind _ _ _) m s
  · exact blind_both (fit_blind _) m s

theorem setsUp_radius (op : GridOp K) (h : SetsUp op) (s : Shallot K) :
    (op.exec s).diskRadius.data = s.diskRadius.data := by
  have := C132_frame op s (.values .diskRadius) (by
    cases op <;> first | exact absurd h id | simp [Touches, OfGradients, OfFit])
  simpa [SamePart, Shallot.prop] using this

/-- **C141** A Hill radius set before a call that sets up the analysis and one set after it: the same call raises with
the same exception, and the grid is the same afterwards. -/
theorem C141_order (op : GridOp K) (h : SetsUp op) (v : PyVal K) (s : Shallot K) :
    op.exec ((GridOp.hill v).exec s) = (GridOp.hill v).exec (op.exec s) ∧
    op.raised ((GridOp.hill v).exec s) = op.raised s ∧
    (GridOp.hill v).raised (op.exec s) = (GridOp.hill v).raised s := by
  rcases hill_forms v with ⟨-, k⟩ | ⟨-, e, k⟩
  · have he : ∀ t : Shallot K, (GridOp.hill v).exec t = withMask (some ⟨t.diskRadius.data.shape,
        t.diskRadius.data.data.map fun x => Shallot.hillAt v.num x⟩) t := fun t => congrArg Prod.snd (k t)
    have hr : ∀ t : Shallot K, (GridOp.hill v).raised t = none := fun t =>
      congrArg (fun x => GridOp.raised.failure (Prod.fst x)) (k t)
    rw [he, he, setsUp_radius op h, hr, hr]
    obtain ⟨h1, h2⟩ := setsUp_blind op h (some ⟨s.diskRadius.data.shape,
        s.diskRadius.data.data.map fun x => Shallot.hillAt v.num x⟩) s
    exact ⟨h1, h2, rfl⟩
  · have he : ∀ t : Shallot K, (GridOp.hill v).exec t = t := fun t => congrArg Prod.snd (k t)
    have hr : ∀ t : Shallot K, (GridOp.hill v).raised t = some e := fun t =>
      congrArg (fun x => GridOp.raised.failure (Prod.fst x)) (k t)
    rw [he, he, hr, hr]
    exact ⟨rfl, rfl, rfl⟩

/-- **C141** The last Hill radius counts. -/
theorem C141_last (u v : PyVal K) (hv : NotNegative v) (s : Shallot K) :
    (GridOp.hill v).exec ((GridOp.hill u).exec s) = (GridOp.hill v).exec s := by
  rcases hill_forms v with ⟨-, k⟩ | ⟨hn, -⟩
  · rcases hill_forms u with ⟨-, k'⟩ | ⟨-, e, k'⟩
    · have he : (GridOp.hill u).exec s = _ := congrArg Prod.snd (k' s)
      rw [he]
      show (Shallot.hillMask v _).2 = (Shallot.hillMask v _).2
      rw [k, k]
      rfl
    · rw [show (GridOp.hill u).exec s = s from congrArg Prod.snd (k' s)]
  · exact absurd hv hn

/-- A rejected Hill radius changes nothing. -/
theorem hill_rejected (u : PyVal K) (hu : ¬ NotNegative u) (s : Shallot K) : (GridOp.hill u).exec s = s := by
  rcases hill_forms u with ⟨h, -⟩ | ⟨-, e, k⟩
  · exact absurd h hu
  · exact congrArg Prod.snd (k s)

/-- Is it a call of `generate_hill_radius_mask`? -/
def Spec.isHill : GridOp K → Bool
  | .hill _ => true
  | _ => false

theorem runGrid_cons (op : GridOp K) (ops : List (GridOp K)) (s : Shallot K) :
    runGrid (op :: ops) s = runGrid ops (op.exec s) := rfl

theorem hill_through (v : PyVal K) (ops : List (GridOp K)) (h : ∀ op ∈ ops, SetsUp op) (s : Shallot K) :
    runGrid ops ((GridOp.hill v).exec s) = (GridOp.hill v).exec (runGrid ops s) := by
  induction ops generalizing s with
  | nil => rfl
  | cons op ops ih =>
    rw [runGrid_cons, runGrid_cons, (C141_order op (h op (by simp)) v s).1, ih fun o ho => h o (by simp [ho])]

theorem others_setUp (ops : List (GridOp K)) (h : ∀ op ∈ ops, isHill op = true ∨ SetsUp op) :
    ∀ op ∈ ops.filter (fun op => !isHill op), SetsUp op := by
  intro op ho
  rw [List.mem_filter] at ho
  rcases h op ho.1 with k | k
  · rw [k] at ho
    exact absurd ho.2 (by decide)
  · exact k

theorem hills_forgotten (v : PyVal K) (hv : NotNegative v) (ops : List (GridOp K))
    (h : ∀ op ∈ ops, isHill op = true ∨ SetsUp op) (s : Shallot K) :
    (GridOp.hill v).exec (runGrid ops s) = (GridOp.hill v).exec (runGrid (ops.filter fun op => !isHill op) s) := by
  induction ops generalizing s with
  | nil => rfl
  | cons op ops ih =>
    have ih := ih fun o ho => h o (by simp [ho])
    rw [runGrid_cons, ih]
    rcases h op (by simp) with k | k
    · obtain ⟨u, rfl⟩ : ∃ u, op = .hill u := by
        cases op <;> first | exact ⟨_, rfl⟩ | exact absurd k (by simp [isHill])
      rw [List.filter_cons_of_neg (by simp [isHill]), hill_through u _ (others_setUp ops fun o ho => h o (by simp [ho])),
        C141_last u v hv]
    · have hn : isHill op = false := by cases op <;> first | rfl | exact absurd k id
      rw [List.filter_cons_of_pos (by simp [hn]), runGrid_cons]

theorem hills_rejected (ops : List (GridOp K)) (h : ∀ u, GridOp.hill u ∈ ops → ¬ NotNegative u) (s : Shallot K) :
    runGrid ops s = runGrid (ops.filter fun op => !isHill op) s := by
  induction ops generalizing s with
  | nil => rfl
  | cons op ops ih =>
    have ih := ih fun u hu => h u (by simp [hu])
    by_cases k : isHill op = true
    · obtain ⟨u, rfl⟩ : ∃ u, op = .hill u := by
        cases op <;> first | exact ⟨_, rfl⟩ | exact absurd k (by simp [isHill])
      rw [List.filter_cons_of_neg (by simp [isHill]), runGrid_cons, hill_rejected u (h u (by simp)), ih]
    · rw [List.filter_cons_of_pos (by simp [k]), runGrid_cons, runGrid_cons, ih]

/-- **C141** After any sequence of calls that set Hill radii or set up the analysis, the grid is the one that the other
calls leave, with the mask of the last Hill radius that was accepted; or without a new mask, if none was. -/
theorem C141_history (ops : List (GridOp K)) (h : ∀ op ∈ ops, isHill op = true ∨ SetsUp op) (s : Shallot K) :
    (∀ before v after, ops = before ++ .hill v :: after → NotNegative v →
      (∀ u, GridOp.hill u ∈ after → ¬ NotNegative u) →
      runGrid ops s = (GridOp.hill v).exec (runGrid (ops.filter fun op => !isHill op) s)) ∧
    ((∀ u, GridOp.hill u ∈ ops → ¬ NotNegative u) →
      runGrid ops s = runGrid (ops.filter fun op => !isHill op) s) := by
  refine ⟨?_, fun hn => hills_rejected ops hn s⟩
  rintro before v after rfl hv hn
  have hb : ∀ op ∈ before, isHill op = true ∨ SetsUp op := fun o ho => h o (by simp [ho])
  have ha : ∀ op ∈ after, isHill op = true ∨ SetsUp op := fun o ho => h o (by simp [ho])
  have split : ∀ (a b : List (GridOp K)), runGrid (a ++ b) s = runGrid b (runGrid a s) := fun a b => by
    unfold runGrid
    rw [List.foldl_append]
  rw [List.filter_append, List.filter_cons_of_neg (by simp [isHill]), split, split, runGrid_cons,
    hills_rejected after hn, hills_forgotten v hv before hb, hill_through v _ (others_setUp after ha)]

end

theorem one_of_two {α : Type} (l : List α) (h : l.length = 2) :
    ((some (without l [0])).getD []).length ≠ ((some l).getD []).length := by
  match l, h with
  | [a, b], _ => simp [without]

/-- Non-vacuity: on a grid with two gradients, removing one and setting a Hill radius both change the grid. -/
theorem C141_witness : ∃ s : Shallot ℝ, Sound s ∧ SetsUp (GridOp.remove (positions [0] : PyVal ℝ)) ∧
    NotNegative (.int 1 : PyVal ℝ) ∧ howManyGradients ((GridOp.remove (positions [0])).exec s) ≠ howManyGradients s ∧
    ((GridOp.hill (.int 1)).exec s).diskRadius.mask ≠ none ∧
    runGrid [.hill (.int 0), .remove (positions [0]), .hill (.int 1), .hill (.int (-1))] s =
      (GridOp.hill (.int 1)).exec ((GridOp.remove (positions [0])).exec s) := by
  obtain ⟨-, s, -, -, -, hs, -, -, ⟨l, hl, hl2⟩, -⟩ := throwAway_fit
  have hv : ∀ n : ℤ, NotNegative (.int n : PyVal ℝ) ↔ 0 ≤ n := fun n => by
    constructor
    · rintro ⟨x, h1, h2⟩
      rw [isNumber_unique h1 (int_isNumber n), less_iff] at h2
      simpa using h2
    · intro h
      refine ⟨_, int_isNumber n, ?_⟩
      rw [less_iff]
      simpa using h
  have rem : ∃ s₁, Shallot.removeGradients (positions [0]) s = (.ok (), s₁) ∧ s₁.gradients = some (without l [0]) :=
    ⟨_, C40_removes_partial s l hl [0] (by simp) (fun i hi => by simp at hi; omega) (by rintro rfl; simp at hl2), rfl⟩
  refine ⟨s, hs, trivial, (hv 1).2 (by decide), ?_, ?_, ?_⟩
  · obtain ⟨s₁, h1, h2⟩ := rem
    have : (GridOp.remove (positions [0])).exec s = s₁ := congrArg Prod.snd h1
    rw [this]
    unfold howManyGradients
    rw [hl, h2]
    exact one_of_two l hl2
  · rcases hill_forms (.int 1 : PyVal ℝ) with ⟨-, k⟩ | ⟨hn, -⟩
    · rw [show (GridOp.hill (.int 1)).exec s = _ from congrArg Prod.snd (k s)]
      exact Option.some_ne_none _
    · exact absurd ((hv 1).2 (by decide)) hn
  · have := (C141_history [.hill (.int 0), .remove (positions [0]), .hill (.int 1), .hill (.int (-1))] (by
      simp [isHill, SetsUp]) s).1 [.hill (.int 0), .remove (positions [0])] (.int 1) [.hill (.int (-1))] rfl
      ((hv 1).2 (by decide)) (by
        intro u hu
        simp only [List.mem_singleton, GridOp.hill.injEq] at hu
        rw [hu, hv]
        decide)
    rw [this]
    rfl

end Beyonce
