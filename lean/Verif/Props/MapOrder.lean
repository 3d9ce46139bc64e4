import Verif.Props.Repeat
import Verif.Props.Complete

/-!
# Property C144: the diagnostic map can be made before or after the measurements
-/

set_option linter.unusedSectionVars false

namespace Beyonce
open Spec

section
variable {K : Type} [Field K] [LinearOrder K] [IsStrictOrderedRing K] [RealFns K] [FloorRing K]

/-- The grid with another diagnostic map. -/
def Spec.withMap (m : Option (GProp K)) (s : Shallot K) : Shallot K := { s with diagnosticMap := m }

/-- A call that neither reads nor writes the diagnostic map. -/
def Spec.Unaware {α : Type} (x : Meth (Shallot K) α) : Prop :=
  ∀ m s, x (withMap m s) = ((x s).1, withMap m (x s).2)

theorem Spec.Unaware.pure {α : Type} (a : α) : Unaware (pure a : Meth (Shallot K) α) := fun _ _ => rfl

theorem Spec.Unaware.throw {α : Type} (e : Err) : Unaware (Meth.throw e : Meth (Shallot K) α) := fun _ _ => rfl

theorem Spec.Unaware.lift {α : Type} (x : Except Err α) : Unaware (Meth.lift x : Meth (Shallot K) α) := fun _ _ => rfl

theorem Spec.Unaware.modify (f : Shallot K → Shallot K) (h : ∀ m s, f (withMap m s) = withMap m (f s)) :
    Unaware (Meth.modify f) := fun m s => by
  rw [Meth.modify_apply, Meth.modify_apply, h]

theorem Spec.Unaware.bind {α β : Type} {x : Meth (Shallot K) α} {f : α → Meth (Shallot K) β} (hx : Unaware x)
    (hf : ∀ a, Unaware (f a)) : Unaware (x >>= f) := fun m s => by
  rw [Meth.bind_apply, Meth.bind_apply, hx m s]
  rcases x s with ⟨_ | a, s'⟩
  · rfl
  · exact hf a m s'

theorem Spec.Unaware.get {β : Type} {f : Shallot K → Meth (Shallot K) β} (h : ∀ m s, f (withMap m s) = f s)
    (hf : ∀ s, Unaware (f s)) : Unaware (Meth.get >>= f) := fun m s => by
  rw [Meth.get_bind, Meth.get_bind, h, hf s m s]

theorem Spec.Unaware.ite {α : Type} {p : Prop} [Decidable p] {x y : Meth (Shallot K) α} (hx : Unaware x) (hy : Unaware y) :
    Unaware (if p then x else y) := by
  split_ifs
  · exact hx
  · exact hy

theorem Spec.Unaware.onGradient {α : Type} (k : ℕ) (x : Meth (GGrad K) α) : Unaware (Shallot.onGradient k x) := fun m s => by
  unfold Shallot.onGradient
  show (match (s.gradients.getD [])[k]? with
    | none => _
    | some g => _) = _
  cases (s.gradients.getD [])[k]? <;> rfl

theorem resetFit_unaware : Unaware (Shallot.resetFit (K := K)) := .modify _ fun _ _ => rfl

theorem removeLoop_unaware : ∀ is : List ℤ, Unaware (Shallot.removeLoop (K := K) is)
  | [] => .pure _
  | i :: is => fun m s => by
    have ih := removeLoop_unaware is
    unfold Shallot.removeLoop
    rw [Meth.get_bind, Meth.get_bind]
    show (if 0 ≤ i ∧ i < (s.gradients.getD []).length then _ else _ : Meth (Shallot K) Unit) _ = _
    by_cases h : 0 ≤ i ∧ i < (s.gradients.getD []).length
    · rw [if_pos h, if_pos h, Meth.bind_apply, Meth.bind_apply, Meth.set_apply, Meth.set_apply]
      exact ih m { s with gradients := some ((s.gradients.getD []).eraseIdx i.toNat) }
    · rw [if_neg h, if_neg h]
      rfl

theorem remove_unaware (v : PyVal K) : Unaware (Shallot.removeGradients v) := by
  refine .get (fun _ _ => rfl) fun s => ?_
  cases s.gradients with
  | none => exact .pure _
  | some l => exact .bind (.lift _) fun a => .bind (removeLoop_unaware _) fun _ => resetFit_unaware

theorem eclipse_unaware (d v u : PyVal K) : Unaware (Shallot.setEclipseParameters d v u) := by
  refine .bind ?_ fun _ => .get (fun _ _ => rfl) fun s => ?_
  · exact .bind (.lift _) fun _ => .bind (.modify _ fun _ _ => rfl) fun _ => .bind (.lift _) fun _ =>
      .bind (.modify _ fun _ _ => rfl) fun _ => .bind (.lift _) fun _ => .modify _ fun _ _ => rfl
  · cases s.gradients with
    | none => exact .pure _
    | some l => exact .bind (.modify _ fun _ _ => rfl) fun _ => resetFit_unaware

theorem append_unaware : ∀ ps : List (XF K), Unaware (Shallot.appendGradients ps)
  | [] => .pure _
  | p :: ps => fun m s => by
    have ih := append_unaware ps
    rw [append_cons, append_cons, show (withMap m s).gradientCube p = s.gradientCube p from rfl,
      show (withMap m s).params = s.params from rfl]
    cases GGrad.new (.arr ⟨"float64", (s.gradientCube p).shape, (s.gradientCube p).data⟩) s.params
      (.npFloat .w64 p) with
    | error e => rfl
    | ok g => exact ih m { s with gradients := some (s.gradients.getD [] ++ [g]) }

theorem measureLoop_unaware (scale : PyVal K) : ∀ (l : List (XF K × XF K × XF K)) (k : ℕ),
    Unaware (Shallot.measureLoop scale k l)
  | [], k => .pure _
  | (a, e, t) :: l, k => by
    unfold Shallot.measureLoop
    exact .get (fun _ _ => rfl) fun s => .ite (.bind (.onGradient _ _) fun _ => measureLoop_unaware scale l (k + 1))
      (.pure _)

theorem setMeasured_unaware (lc : NpArr K) (e t : PyVal K) : Unaware (Shallot.setMeasured lc e t) :=
  .bind (.lift _) fun _ => .bind (.lift _) fun _ => .bind (.lift _) fun _ => .get (fun _ _ => rfl) fun _ =>
    .bind (.lift _) fun _ => measureLoop_unaware _ _ _

theorem add_unaware (t l e r : PyVal K) : Unaware (Shallot.addGradients t l e r) :=
  .get (fun _ _ => rfl) fun _ => .ite (.bind (.lift _) fun _ => .bind (.lift _) fun _ => .bind (.lift _) fun _ =>
    .bind (.lift _) fun _ => .bind (.bind (.lift _) fun _ => .bind (.modify _ fun _ _ => rfl) fun _ =>
      append_unaware _) fun _ => .bind (setMeasured_unaware _ _ _) fun _ => resetFit_unaware) (.pure _)

theorem rescaleLoop_unaware (b : Bool) (t : Option (List (XF K))) : ∀ n k : ℕ,
    Unaware (Shallot.rescaleLoop (K := K) b t n k)
  | 0, k => .pure _
  | n + 1, k => by
    unfold Shallot.rescaleLoop
    refine .get (fun _ _ => rfl) fun s => ?_
    cases (s.gradients.getD [])[k]? with
    | none => exact .pure _
    | some g => exact .bind (.lift _) fun _ => .bind (.onGradient _ _) fun _ => rescaleLoop_unaware b t n (k + 1)

theorem update_unaware (v u t : PyVal K) : Unaware (Shallot.updateScaling v u t) := by
  refine .bind (.modify _ fun _ _ => rfl) fun _ => .get (fun _ _ => rfl) fun s => .bind (.lift _) fun t =>
    .ite (.pure _) ?_
  cases s.gradients with
  | none => exact .throw _
  | some l => exact .bind (rescaleLoop_unaware _ _ _ _) fun _ => resetFit_unaware

theorem onFit_unaware {α : Type} (x : Meth (GProp K) α) : Unaware (Shallot.onProp .gradientFit x) := fun m s => by
  have h : ∀ t : Shallot K, Shallot.onProp .gradientFit x t = match t.gradientFit with
    | none => (.error .attributeError, t)
    | some p => ((x p).1, { t with gradientFit := some (x p).2 }) := fun t => rfl
  rw [h, h, show (withMap m s).gradientFit = s.gradientFit from rfl]
  cases s.gradientFit <;> rfl

theorem fit_unaware (w : Bool) : Unaware (Shallot.determineFit (K := K) w) := by
  refine .get (fun _ _ => rfl) fun s => ?_
  cases s.gradients with
  | none => exact .pure _
  | some l => exact .bind (.lift _) fun _ => .bind (.lift _) fun _ => .bind (.modify _ fun _ _ => rfl) fun _ =>
      onFit_unaware _

theorem hill_unaware (v : PyVal K) : Unaware (Shallot.hillMask v) := fun m s => by
  rcases hill_forms v with ⟨-, k⟩ | ⟨-, e, k⟩
  · rw [k, k]
    rfl
  · rw [k, k]

/-- The diagnostic map is made from the parameters and the stored disk radii. -/
theorem diagnose_forms (s : Shallot K) : ∃ r, (∀ t : Shallot K, t.params = s.params →
      t.diskRadius.data = s.diskRadius.data → Shallot.diagnose t = (r, t)) ∨
    ∃ q, ∀ t : Shallot K, t.params = s.params → t.diskRadius.data = s.diskRadius.data →
      Shallot.diagnose t = (r, withMap q t) := by
  let g := s.params
  let values := cubeOf g.gridShape.1 g.gridShape.2.1 g.gridShape.2.2 fun y x r =>
    ((s.diskRadius.data.at3 y x r).div (s.diskRadius.data.at3 y x (g.rf.data.length - 1))).sub
      (g.rfArray.data.getD r .nan)
  cases hp : GProp.new .diagnosticMap .eclipseDuration (.arr ⟨"float64", values.shape, values.data⟩) g with
  | error e =>
    refine ⟨.error e, Or.inl fun t h1 h2 => ?_⟩
    unfold Shallot.diagnose
    conv_lhs => rw [Meth.get_bind, h1, h2]
    exact (congrArg (fun z => (Meth.lift z >>= fun p => Meth.modify ({ · with diagnosticMap := some p })) t) hp)
  | ok p =>
    refine ⟨.ok (), Or.inr ⟨some p, fun t h1 h2 => ?_⟩⟩
    unfold Shallot.diagnose
    conv_lhs => rw [Meth.get_bind, h1, h2]
    exact (congrArg (fun z => (Meth.lift z >>= fun p => Meth.modify ({ · with diagnosticMap := some p })) t) hp)

/-- The calls that set up an analysis, apart from the diagnostic map. -/
def Spec.Measures : GridOp K → Prop
  | .add _ _ _ _ | .remove _ | .eclipse _ _ _ | .update _ _ _ | .fit _ | .hill _ => True
  | _ => False

theorem measures_unaware (op : GridOp K) (h : Measures op) (m : Option (GProp K)) (s : Shallot K) :
    op.exec (withMap m s) = withMap m (op.exec s) ∧ op.raised (withMap m s) = op.raised s := by
  have both : ∀ {α : Type} {x : Meth (Shallot K) α}, Unaware x → (x (withMap m s)).2 = withMap m (x s).2 ∧
      GridOp.raised.failure (x (withMap m s)).1 = GridOp.raised.failure (x s).1 := fun hx => by
    rw [hx m s]
    exact ⟨rfl, rfl⟩
  cases op <;> first | exact absurd h id | skip
  · exact both (hill_unaware _)
  · exact both (add_unaware _ _ _ _)
  · exact both (remove_unaware _)
  · exact both (eclipse_unaware _ _ _)
  · exact both (update_unaware _ _ _)
  · exact both (fit_unaware _)

theorem measures_radius (op : GridOp K) (h : Measures op) (s : Shallot K) :
    (op.exec s).params = s.params ∧ (op.exec s).diskRadius.data = s.diskRadius.data := by
  have hf := C132_frame op s .fixed (by
    cases op <;> first | exact absurd h id | simp [Touches, OfGradients, OfFit])
  refine ⟨hf.1, ?_⟩
  have := C132_frame op s (.values .diskRadius) (by
    cases op <;> first | exact absurd h id | simp [Touches, OfGradients, OfFit])
  simpa [SamePart, Shallot.prop] using this

/-- **C144** A diagnostic map made before a call that sets up the analysis and one made after it: the same call raises
with the same exception, and the grid is the same afterwards. -/
theorem C144_order (op : GridOp K) (h : Measures op) (s : Shallot K) :
    op.exec (GridOp.diagnose.exec s) = GridOp.diagnose.exec (op.exec s) ∧
    op.raised (GridOp.diagnose.exec s) = op.raised s ∧
    GridOp.diagnose.raised (op.exec s) = GridOp.diagnose.raised s := by
  obtain ⟨h1, h2⟩ := measures_radius op h s
  obtain ⟨r, k | ⟨q, k⟩⟩ := diagnose_forms s
  · have e1 : GridOp.diagnose.exec s = s := congrArg Prod.snd (k s rfl rfl)
    have e2 : GridOp.diagnose.exec (op.exec s) = op.exec s := congrArg Prod.snd (k _ h1 h2)
    refine ⟨by rw [e1, e2], by rw [e1], ?_⟩
    show GridOp.raised.failure (Shallot.diagnose _).1 = GridOp.raised.failure (Shallot.diagnose _).1
    rw [k s rfl rfl, k _ h1 h2]
  · have e1 : GridOp.diagnose.exec s = withMap q s := congrArg Prod.snd (k s rfl rfl)
    have e2 : GridOp.diagnose.exec (op.exec s) = withMap q (op.exec s) := congrArg Prod.snd (k _ h1 h2)
    obtain ⟨u1, u2⟩ := measures_unaware op h q s
    refine ⟨by rw [e1, e2, u1], by rw [e1, u2], ?_⟩
    show GridOp.raised.failure (Shallot.diagnose _).1 = GridOp.raised.failure (Shallot.diagnose _).1
    rw [k s rfl rfl, k _ h1 h2]

/-- Is it a call of `diagnose_fxfy_resolution`? -/
def Spec.isDiagnose : GridOp K → Bool
  | .diagnose => true
  | _ => false

theorem diagnose_through (ops : List (GridOp K)) (h : ∀ op ∈ ops, Measures op) (s : Shallot K) :
    runGrid ops (GridOp.diagnose.exec s) = GridOp.diagnose.exec (runGrid ops s) := by
  induction ops generalizing s with
  | nil => rfl
  | cons op ops ih =>
    rw [runGrid_cons, runGrid_cons, (C144_order op (h op (by simp)) s).1, ih fun o ho => h o (by simp [ho])]

/-- **C144** After any sequence of such calls in which the map is made, once or more often and anywhere, the grid is
the one that the other calls leave, with the map made at the end. -/
theorem C144_history (ops : List (GridOp K)) (h : ∀ op ∈ ops, isDiagnose op = true ∨ Measures op)
    (hd : GridOp.diagnose ∈ ops) (s : Shallot K) :
    runGrid ops s = GridOp.diagnose.exec (runGrid (ops.filter fun op => !isDiagnose op) s) := by
  have again : ∀ t : Shallot K, GridOp.diagnose.exec (GridOp.diagnose.exec t) = GridOp.diagnose.exec t := fun t =>
    congrArg Prod.snd (diagnose_again t)
  have others : ∀ l : List (GridOp K), (∀ op ∈ l, isDiagnose op = true ∨ Measures op) →
      ∀ op ∈ l.filter (fun op => !isDiagnose op), Measures op := by
    intro l hl op ho
    rw [List.mem_filter] at ho
    rcases hl op ho.1 with k | k
    · rw [k] at ho
      exact absurd ho.2 (by decide)
    · exact k
  have isD : ∀ op : GridOp K, isDiagnose op = true → op = .diagnose := fun op k => by
    cases op <;> first | rfl | exact absurd k (by simp [isDiagnose])
  have drop : ∀ l : List (GridOp K), (∀ op ∈ l, isDiagnose op = true ∨ Measures op) → ∀ t : Shallot K,
      runGrid l (GridOp.diagnose.exec t) = GridOp.diagnose.exec (runGrid (l.filter fun op => !isDiagnose op) t) := by
    intro l hl
    induction l with
    | nil => exact fun t => rfl
    | cons op l ih =>
      intro t
      have hl' : ∀ op ∈ l, isDiagnose op = true ∨ Measures op := fun o ho => hl o (by simp [ho])
      rw [runGrid_cons]
      by_cases k : isDiagnose op = true
      · rw [isD op k, again, List.filter_cons_of_neg (by simp [isDiagnose]), ih hl']
      · have hm : Measures op := (hl op (by simp)).resolve_left k
        rw [(C144_order op hm t).1, ih hl', List.filter_cons_of_pos (by simp [k]), runGrid_cons]
  induction ops generalizing s with
  | nil => simp at hd
  | cons op ops ih =>
    have h' : ∀ op ∈ ops, isDiagnose op = true ∨ Measures op := fun o ho => h o (by simp [ho])
    rw [runGrid_cons]
    by_cases k : isDiagnose op = true
    · rw [isD op k, List.filter_cons_of_neg (by simp [isDiagnose]), drop ops h']
    · have hm : GridOp.diagnose ∈ ops := by
        rcases List.mem_cons.1 hd with e | e
        · rw [← e] at k
          exact absurd rfl k
        · exact e
      rw [ih h' hm, List.filter_cons_of_pos (by simp [k]), runGrid_cons]

end

/-- Non-vacuity: on a grid with two gradients, removing one changes the grid, and the map is made anyway. -/
theorem C144_witness : ∃ s : Shallot ℝ, Sound s ∧ Measures (GridOp.remove (positions [0] : PyVal ℝ)) ∧
    howManyGradients ((GridOp.remove (positions [0])).exec s) ≠ howManyGradients s ∧
    (GridOp.diagnose.exec s).diagnosticMap ≠ none ∧
    runGrid [.diagnose, .remove (positions [0]), .fit true, .diagnose, .hill (.int 1)] s =
      runGrid [.remove (positions [0]), .fit true, .hill (.int 1), .diagnose] s := by
  obtain ⟨s, hs, -, -, h1, -, -⟩ := C141_witness
  refine ⟨s, hs, trivial, h1, ?_, ?_⟩
  · show (Shallot.diagnose s).2.diagnosticMap ≠ none
    rw [diagnose_ok]
    exact Option.some_ne_none _
  · rw [C144_history _ (by simp [isDiagnose, Measures]) (by simp), C144_history [.remove _, _, _, _]
      (by simp [isDiagnose, Measures]) (by simp)]
    rfl

end Beyonce
