import Verif.Props.HillOrder
import Verif.Props.GettersExact
import Verif.Props.Reanalysis

/-!
# Property C142: repeating a call changes nothing more
-/

set_option linter.unusedSectionVars false

namespace Beyonce
open Spec

section
variable {K : Type} [Field K] [LinearOrder K] [IsStrictOrderedRing K] [RealFns K] [FloorRing K]

/-- The call made twice in a row: the second time it has the outcome of the first and leaves the grid as it is. -/
def Spec.Repeatable {α : Type} (x : Meth (Shallot K) α) : Prop := ∀ s, x (x s).2 = x s

theorem bind_failed {S α β : Type} (m : Meth S α) (f : α → Meth S β) (s s' : S) (e : Err)
    (h : m s = (.error e, s')) : (m >>= f) s = (.error e, s') := by
  rw [Meth.bind_apply, h]

/-! ## Getters -/

theorem putWhere_again {α : Type} (v : α) (a b : List Bool) (xs : List α) :
    putWhere v b (putWhere v a (putWhere v b (putWhere v a xs))) = putWhere v b (putWhere v a xs) := by
  induction xs generalizing a b with
  | nil => cases a <;> cases b <;> simp [putWhere]
  | cons x xs ih =>
    cases a with
    | nil =>
      cases b with
      | nil => simp [putWhere]
      | cons j b =>
        have := ih [] b
        simp only [putWhere, List.cons.injEq] at this ⊢
        exact ⟨by cases j <;> rfl, this⟩
    | cons i a =>
      cases b with
      | nil =>
        have := ih a []
        simp only [putWhere, List.cons.injEq] at this ⊢
        exact ⟨by cases i <;> rfl, this⟩
      | cons j b =>
        simp only [putWhere, List.cons.injEq]
        exact ⟨by cases i <;> cases j <;> rfl, ih a b⟩

theorem getData_forms (w : PyVal K) (mk : Option Mask) (sh : List ℕ) :
    (∃ e, ∀ p : GProp K, p.mask = mk → p.data.shape = sh → GProp.getData w p = (.error e, p)) ∨
    ∃ ms, ∀ p : GProp K, p.mask = mk → p.data.shape = sh →
      GProp.getData w p = (.ok ⟨sh, putWhere .nan ms p.data.data⟩,
        { p with data := ⟨sh, putWhere .nan ms p.data.data⟩ }) := by
  have same : (∀ p : GProp K, p.mask = mk → GProp.getData w p = (.ok p.data, p)) →
      ∀ p : GProp K, p.mask = mk → p.data.shape = sh →
      GProp.getData w p = (.ok ⟨sh, putWhere .nan [] p.data.data⟩,
        { p with data := ⟨sh, putWhere .nan [] p.data.data⟩ }) := by
    intro h p hm hs
    rw [h p hm, ← hs]
    cases p
    simp [putWhere]
  cases hb : boolean w with
  | error e =>
    refine Or.inl ⟨e, fun p _ _ => ?_⟩
    unfold GProp.getData
    rw [hb]
    rfl
  | ok b =>
    obtain rfl := boolean_bool hb
    cases b with
    | false => exact Or.inr ⟨[], same fun p _ => C30_unmasked_read p false (Or.inl rfl)⟩
    | true =>
      cases mk with
      | none => exact Or.inr ⟨[], same fun p h => C30_unmasked_read p true (Or.inr h)⟩
      | some m =>
        by_cases hms : m.shape = sh
        · refine Or.inr ⟨m.data, fun p hm hs => ?_⟩
          unfold GProp.getData
          rw [hb, Meth.lift_ok_bind, Meth.get_bind]
          obtain ⟨a1, a2, a3, a4, a5, a6, a7, a8, a9⟩ := p
          simp only at hm hs
          subst hm hs
          simp only [if_pos hms]
          rfl
        · refine Or.inl ⟨.indexError, fun p hm hs => ?_⟩
          unfold GProp.getData
          rw [hb, Meth.lift_ok_bind, Meth.get_bind]
          obtain ⟨a1, a2, a3, a4, a5, a6, a7, a8, a9⟩ := p
          simp only at hm hs
          subst hm hs
          simp only [if_neg hms]
          rfl

theorem setProp_twice (s : Shallot K) (p q : GProp K) (c : Cube) : (s.setProp p c).setProp q c = s.setProp q c := by
  cases c <;> rfl

theorem combinedMask_setProp (s : Shallot K) (c : Cube) (p q : GProp K) (hp : s.prop c = some p)
    (hm : q.mask = p.mask) : (s.setProp q c).combinedMask = s.combinedMask := by
  have h : (s.setProp q c).allMasks = s.allMasks := by
    unfold Shallot.allMasks
    cases c <;> simp only [Shallot.prop, Option.some.injEq] at hp <;> simp [Shallot.setProp, hm, hp]
  unfold Shallot.combinedMask
  rw [h, setProp_params]

theorem combinedMask_data (s : Shallot K) (c : Cube) (p : GProp K) (d : Nd K) (hp : s.prop c = some p) :
    (s.setProp { p with data := d } c).combinedMask = s.combinedMask := combinedMask_setProp s c p { p with data := d } hp rfl

/-- What a getter does to its cube, as a function of the values; it depends on the values of no other cube. -/
theorem getCube_shape (c : Cube) (v w : PyVal K) (mk : Option Mask) (sh : List ℕ) (cm : Except Err Mask) :
    ∃ (a b : List Bool) (oe : Option Err),
      ∀ (s : Shallot K) (p : GProp K), s.prop c = some p → p.mask = mk → p.data.shape = sh → s.combinedMask = cm →
        Shallot.getCube c v w s = ((match oe with
            | none => .ok ⟨sh, putWhere .nan b (putWhere .nan a p.data.data)⟩
            | some e => .error e),
          s.setProp { p with data := ⟨sh, putWhere .nan b (putWhere .nan a p.data.data)⟩ } c) := by
  have nil : ∀ xs : List (XF K), putWhere .nan [] xs = xs := fun xs => by simp [putWhere]
  rcases getData_forms w mk sh with ⟨e, h⟩ | ⟨ms, h⟩
  · refine ⟨[], [], some e, fun s p hp hm hs _ => ?_⟩
    simp only [nil]
    have h1 : Shallot.onProp c (GProp.getData w) s = (.error e, s) := by
      unfold Shallot.onProp
      rw [hp]
      simp only [h p hm hs, setProp_prop_self s c p hp]
    have h2 : s.setProp { p with data := ⟨sh, p.data.data⟩ } c = s := by
      rw [← hs]
      exact setProp_prop_self s c p hp
    rw [h2]
    unfold Shallot.getCube
    rw [bind_failed _ _ _ _ _ h1]
  · have h1 : ∀ (s : Shallot K) (p : GProp K), s.prop c = some p → p.mask = mk → p.data.shape = sh →
        Shallot.onProp c (GProp.getData w) s = (.ok ⟨sh, putWhere .nan ms p.data.data⟩,
          s.setProp { p with data := ⟨sh, putWhere .nan ms p.data.data⟩ } c) := by
      intro s p hp hm hs
      unfold Shallot.onProp
      rw [hp]
      simp only [h p hm hs]
    cases hb : boolean v with
    | error e =>
      refine ⟨ms, [], some e, fun s p hp hm hs _ => ?_⟩
      simp only [nil]
      unfold Shallot.getCube
      rw [bind_ok _ _ _ _ _ (h1 s p hp hm hs), hb]
      rfl
    | ok b =>
      cases b with
      | false =>
        refine ⟨ms, [], none, fun s p hp hm hs _ => ?_⟩
        simp only [nil]
        unfold Shallot.getCube
        rw [bind_ok _ _ _ _ _ (h1 s p hp hm hs), hb]
        rfl
      | true =>
        cases hcm : cm with
        | error e =>
          refine ⟨ms, [], some e, fun s p hp hm hs hc => ?_⟩
          simp only [nil]
          unfold Shallot.getCube
          rw [bind_ok _ _ _ _ _ (h1 s p hp hm hs), hb, Meth.lift_ok_bind]
          simp only [if_true]
          rw [Meth.get_bind, combinedMask_data s c p _ hp, hc]
          rfl
        | ok m =>
          by_cases hms : m.shape = sh
          · refine ⟨ms, m.data, none, fun s p hp hm hs hc => ?_⟩
            unfold Shallot.getCube
            rw [bind_ok _ _ _ _ _ (h1 s p hp hm hs), hb, Meth.lift_ok_bind]
            simp only [if_true]
            rw [Meth.get_bind, combinedMask_data s c p _ hp, hc, Meth.lift_ok_bind]
            unfold Shallot.onProp
            rw [setProp_prop, if_pos rfl]
            unfold Shallot.nanWhere
            simp only [Meth.get_bind, if_pos hms]
            exact Prod.ext rfl (setProp_twice _ _ _ _)
          · refine ⟨ms, [], some .indexError, fun s p hp hm hs hc => ?_⟩
            simp only [nil]
            unfold Shallot.getCube
            rw [bind_ok _ _ _ _ _ (h1 s p hp hm hs), hb, Meth.lift_ok_bind]
            simp only [if_true]
            rw [Meth.get_bind, combinedMask_data s c p _ hp, hc, Meth.lift_ok_bind]
            unfold Shallot.onProp
            rw [setProp_prop, if_pos rfl]
            unfold Shallot.nanWhere
            simp only [Meth.get_bind, if_neg hms]
            exact Prod.ext rfl (setProp_twice _ _ _ _)

theorem getCube_forms (c : Cube) (v w : PyVal K) (mk : Option Mask) (sh : List ℕ) (cm : Except Err Mask) :
    ∃ (f : List (XF K) → List (XF K)) (oe : Option Err), (∀ xs, f (f xs) = f xs) ∧
      ∀ (s : Shallot K) (p : GProp K), s.prop c = some p → p.mask = mk → p.data.shape = sh → s.combinedMask = cm →
        Shallot.getCube c v w s = ((match oe with | none => .ok ⟨sh, f p.data.data⟩ | some e => .error e),
          s.setProp { p with data := ⟨sh, f p.data.data⟩ } c) := by
  obtain ⟨a, b, oe, h⟩ := getCube_shape c v w mk sh cm
  exact ⟨fun xs => putWhere .nan b (putWhere .nan a xs), oe, fun xs => putWhere_again _ _ _ _, h⟩

theorem getCube_none (c : Cube) (v w : PyVal K) (s : Shallot K) (h : s.prop c = none) :
    Shallot.getCube c v w s = (.error .attributeError, s) := by
  have h1 : Shallot.onProp c (GProp.getData w) s = (.error .attributeError, s) := by
    unfold Shallot.onProp
    rw [h]
  unfold Shallot.getCube
  rw [bind_failed _ _ _ _ _ h1]

theorem getCube_again (c : Cube) (v w : PyVal K) : Repeatable (K := K) (Shallot.getCube c v w) := by
  intro s
  cases hp : s.prop c with
  | none => rw [getCube_none c v w s hp, getCube_none c v w s hp]
  | some p =>
    obtain ⟨f, oe, hf, h⟩ := getCube_forms c v w p.mask p.data.shape s.combinedMask
    have h1 := h s p hp rfl rfl rfl
    have h2 := h (s.setProp { p with data := ⟨p.data.shape, f p.data.data⟩ } c)
      { p with data := ⟨p.data.shape, f p.data.data⟩ } (by rw [setProp_prop, if_pos rfl]) rfl rfl
      (combinedMask_data s c p _ hp)
    rw [h1, h2]
    simp only [hf, setProp_twice]

theorem getCube_gradientFit (v w : PyVal K) (s : Shallot K) :
    (Shallot.getCube .gradientFit v w s).2.gradientFit = none ↔ s.gradientFit = none := by
  cases hp : s.prop .gradientFit with
  | none => rw [getCube_none _ v w s hp]
  | some p =>
    obtain ⟨f, oe, hf, h⟩ := getCube_forms .gradientFit v w p.mask p.data.shape s.combinedMask
    rw [h s p hp rfl rfl rfl]
    have : s.gradientFit = some p := hp
    simp [Shallot.setProp, this]

theorem getFit_again (v w : PyVal K) : Repeatable (K := K) (Shallot.getGradientFit v w) := by
  intro s
  by_cases hn : s.gradientFit = none
  · have h : Shallot.getGradientFit v w s = (.ok none, s) := by
      unfold Shallot.getGradientFit
      rw [Meth.get_bind, if_pos hn]
      rfl
    rw [h, h]
  · have h : ∀ t : Shallot K, t.gradientFit ≠ none → Shallot.getGradientFit v w t =
        ((Shallot.getCube .gradientFit v w t).1.map some, (Shallot.getCube .gradientFit v w t).2) := by
      intro t ht
      unfold Shallot.getGradientFit
      rw [Meth.get_bind, if_neg ht]
      rcases hr : Shallot.getCube .gradientFit v w t with ⟨r | r, t'⟩
      · rw [bind_failed _ _ _ _ _ hr]
        rfl
      · rw [bind_ok _ _ _ _ _ hr]
        rfl
    rw [h s hn, h _ fun e => hn ((getCube_gradientFit v w s).1 e), getCube_again]

/-! ## Hill radius, diagnostic map, eclipse, fit -/

theorem hill_again (v : PyVal K) : Repeatable (K := K) (Shallot.hillMask v) := by
  intro s
  rcases hill_forms v with ⟨-, k⟩ | ⟨-, e, k⟩
  · rw [k, k]
    rfl
  · rw [k, k]

theorem diagnose_again : Repeatable (K := K) Shallot.diagnose := by
  intro s
  obtain ⟨r, h | ⟨q, h⟩⟩ : ∃ r, (∀ t : Shallot K, t.params = s.params → t.diskRadius = s.diskRadius →
      Shallot.diagnose t = (r, t)) ∨ ∃ q, ∀ t : Shallot K, t.params = s.params → t.diskRadius = s.diskRadius →
      Shallot.diagnose t = (r, { t with diagnosticMap := q }) := by
    let g := s.params
    let values := cubeOf g.gridShape.1 g.gridShape.2.1 g.gridShape.2.2 fun y x r =>
      ((s.diskRadius.data.at3 y x r).div (s.diskRadius.data.at3 y x (g.rf.data.length - 1))).sub
        (g.rfArray.data.getD r .nan)
    cases hp : GProp.new .diagnosticMap .eclipseDuration (.arr ⟨"float64", values.shape, values.data⟩) g with
    | error e =>
      refine ⟨.error e, Or.inl fun t h1 h2 => ?_⟩
      unfold Shallot.diagnose
      conv_lhs => rw [Meth.get_bind, h1, h2]
      exact (congrArg (fun z => (Meth.lift z >>= fun p => Meth.modify ({ · with diagnosticMap := some p })) t) hp)
    | ok p =>
      refine ⟨.ok (), Or.inr ⟨some p, fun t h1 h2 => ?_⟩⟩
      unfold Shallot.diagnose
      conv_lhs => rw [Meth.get_bind, h1, h2]
      exact (congrArg (fun z => (Meth.lift z >>= fun p => Meth.modify ({ · with diagnosticMap := some p })) t) hp)
  · rw [h s rfl rfl, h s rfl rfl]
  · rw [h s rfl rfl]
    exact h _ rfl rfl

theorem eclipse_again (d v u : PyVal K) : Repeatable (K := K) (Shallot.setEclipseParameters d v u) := by
  intro s
  unfold Shallot.setEclipseParameters Shallot.storeEclipse
  cases number d (.bool false) (.float (.fin (0 : K))) with
  | error e => rfl
  | ok d =>
    cases number v (.bool false) (.float (.fin (0 : K))) with
    | error e => rfl
    | ok v =>
      cases number u (.bool false) (.float (.fin (0 : K))) (.float (.fin (1 : K))) with
      | error e => rfl
      | ok u =>
        obtain ⟨a1, a2, a3, a4, a5, a6, a7, a8, a9, a10, a11, a12, a13, a14, a15, a16⟩ := s
        cases a12 <;> rfl

theorem fit_again (weighted : Bool) : Repeatable (K := K) (Shallot.determineFit weighted) := by
  intro s
  obtain ⟨r, h | ⟨q, h⟩⟩ : ∃ r, (∀ t : Shallot K, t.params = s.params → t.gradients = s.gradients →
      Shallot.determineFit weighted t = (r, t)) ∨ ∃ q, ∀ t : Shallot K, t.params = s.params →
      t.gradients = s.gradients → Shallot.determineFit weighted t = (r, { t with gradientFit := q }) := by
    cases hg : s.gradients with
    | none =>
      refine ⟨.ok (), Or.inl fun t h1 h2 => ?_⟩
      unfold Shallot.determineFit
      rw [Meth.get_bind, h2]
      rfl
    | some gs =>
      obtain ⟨a, b, c, hs⟩ : ∃ a b c, s.params.gridShape = (a, b, c) := ⟨_, _, _, rfl⟩
      cases hf : Shallot.fitLoop weighted gs (List.replicate (a * b * c) (.fin 0)) with
      | error e =>
        refine ⟨.error e, Or.inl fun t h1 h2 => ?_⟩
        unfold Shallot.determineFit
        conv_lhs => rw [Meth.get_bind, h2, h1, hs]
        simp only [hf]
        rfl
      | ok data =>
        cases hp : GProp.new .gradientFit .none (.arr ⟨"float64", [a, b, c], data⟩) s.params with
        | error e =>
          refine ⟨.error e, Or.inl fun t h1 h2 => ?_⟩
          unfold Shallot.determineFit
          conv_lhs => rw [Meth.get_bind, h2, h1, hs]
          simp only [hf, Meth.lift_ok_bind, hp]
          rfl
        | ok p =>
          let x := GProp.setMask (.arr ⟨"bool", [a, b, c], data.map fun x : XF K => .fin (if x.isNan then 1 else 0)⟩) p
          refine ⟨x.1, Or.inr ⟨some x.2, fun t h1 h2 => ?_⟩⟩
          unfold Shallot.determineFit
          conv_lhs => rw [Meth.get_bind, h2, h1, hs]
          simp only [hf, Meth.lift_ok_bind, hp]
          rfl
  · rw [h s rfl rfl, h s rfl rfl]
  · rw [h s rfl rfl]
    exact h _ rfl rfl

/-! ## C142 -/

/-- The calls that can be repeated: reading a cube or the fit, setting the Hill radius or the eclipse, making the
diagnostic map and fitting. -/
def Spec.CanRepeat : GridOp K → Prop
  | .get _ _ _ | .getFit _ _ | .hill _ | .diagnose | .eclipse _ _ _ | .fit _ => True
  | _ => False

/-- **C142** Read again, a cube and the fit are what they were the first time (or the same exception is raised), and
the grid stays as the first reading left it. -/
theorem C142_reads (c : Cube) (v w : PyVal K) (s : Shallot K) :
    Shallot.getCube c v w (Shallot.getCube c v w s).2 = Shallot.getCube c v w s ∧
    Shallot.getGradientFit v w (Shallot.getGradientFit v w s).2 = Shallot.getGradientFit v w s :=
  ⟨getCube_again c v w s, getFit_again v w s⟩

/-- **C142** However often such a call is made in a row, with the same arguments: the grid is as after the first call,
and each call raises what the first one raised. -/
theorem C142_again (op : GridOp K) (h : CanRepeat op) (s : Shallot K) (n : ℕ) :
    runGrid (List.replicate (n + 1) op) s = op.exec s ∧
    op.raised (runGrid (List.replicate n op) s) = op.raised s := by
  have key : op.exec (op.exec s) = op.exec s ∧ op.raised (op.exec s) = op.raised s := by
    have both : ∀ {α : Type} {x : Meth (Shallot K) α}, Repeatable x → (x (x s).2).2 = (x s).2 ∧
        GridOp.raised.failure (x (x s).2).1 = GridOp.raised.failure (x s).1 := fun hx => by
      rw [hx s]
      exact ⟨rfl, rfl⟩
    cases op <;> first | exact absurd h id | skip
    · exact both (getCube_again _ _ _)
    · exact both (getFit_again _ _)
    · exact both (hill_again _)
    · exact both diagnose_again
    · exact both (eclipse_again _ _ _)
    · exact both (fit_again _)
  have all : ∀ n, runGrid (List.replicate n op) (op.exec s) = op.exec s := by
    intro n
    induction n with
    | zero => rfl
    | succ n ih => rw [List.replicate_succ, runGrid_cons, key.1, ih]
  refine ⟨by rw [List.replicate_succ, runGrid_cons, all], ?_⟩
  cases n with
  | zero => rfl
  | succ n => rw [List.replicate_succ, runGrid_cons, all, key.2]

end

/-- Non-vacuity: a first reading that does change the grid, and a second one that does not. -/
theorem C142_witness : ∃ (s s' : Shallot ℝ) (d : Nd ℝ), Sound s ∧
    CanRepeat (GridOp.get .diskRadius (.bool true) (.bool true) : GridOp ℝ) ∧ s' ≠ s ∧
    Shallot.getCube .diskRadius (.bool true) (.bool true) s = (.ok d, s') ∧
    Shallot.getCube .diskRadius (.bool true) (.bool true) s' = (.ok d, s') := by
  obtain ⟨s₀, s, h1, h2, hs, hm, R, hR, hv⟩ := throwAway_masked
  obtain ⟨d, s', d', h, hne, -, -⟩ := C43_false s hs .diskRadius s.diskRadius rfl 25 (.fin R) hv (by simp) hm
  refine ⟨s, s', d, hs, trivial, hne, h, ?_⟩
  have := (C142_reads .diskRadius (.bool true) (.bool true) s).1
  rwa [h] at this

end Beyonce
