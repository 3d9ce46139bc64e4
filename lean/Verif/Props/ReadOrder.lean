import Verif.Props.RepeatReads

/-!
# Property C143: the order in which properties are read does not matter
-/

set_option linter.unusedSectionVars false

namespace Beyonce
open Spec

section
variable {K : Type} [Field K] [LinearOrder K] [IsStrictOrderedRing K] [RealFns K] [FloorRing K]

theorem putWhere_comm {α : Type} (v : α) (a b : List Bool) (xs : List α) :
    putWhere v b (putWhere v a xs) = putWhere v a (putWhere v b xs) := by
  induction xs generalizing a b with
  | nil => cases a <;> cases b <;> simp [putWhere]
  | cons x xs ih =>
    cases a with
    | nil => cases b <;> simp [putWhere]
    | cons i a =>
      cases b with
      | nil => simp [putWhere]
      | cons j b =>
        simp only [putWhere, List.cons.injEq]
        exact ⟨by cases i <;> cases j <;> rfl, ih a b⟩

theorem setProp_comm (s : Shallot K) (p q : GProp K) {c c' : Cube} (h : c ≠ c') :
    (s.setProp p c).setProp q c' = (s.setProp q c').setProp p c := by
  cases c <;> cases c' <;> first | rfl | exact absurd rfl h

/-- **C143** Reading one property does not change what another one is read as: its values, or the exception. -/
theorem C143_values (c c' : Cube) (hc : c ≠ c') (v w v' w' : PyVal K) (s : Shallot K) :
    (Shallot.getCube c' v' w' (Shallot.getCube c v w s).2).1 = (Shallot.getCube c' v' w' s).1 := by
  have hr := getCube_reader c v w
  have hk : (Shallot.getCube c v w s).2.prop c' = s.prop c' :=
    hr.keeps s (.inl c') fun h => hc (Sum.inl.inj h).symm
  cases hp : s.prop c' with
  | none => rw [getCube_none c' v' w' s hp, getCube_none c' v' w' _ (hk.trans hp)]
  | some p =>
    obtain ⟨a, b, oe, h⟩ := getCube_shape c' v' w' p.mask p.data.shape s.combinedMask
    rw [h s p hp rfl rfl rfl, h _ p (hk.trans hp) rfl rfl (hr.rest s).combined]

theorem getCube_comm (c c' : Cube) (v w v' w' : PyVal K) (s : Shallot K) :
    (Shallot.getCube c' v' w' (Shallot.getCube c v w s).2).2 =
      (Shallot.getCube c v w (Shallot.getCube c' v' w' s).2).2 := by
  cases hp : s.prop c with
  | none =>
    have : (Shallot.getCube c' v' w' s).2.prop c = none := by
      by_cases hc : c = c'
      · subst hc
        rw [getCube_none c v' w' s hp]
        exact hp
      · exact Eq.trans ((getCube_reader c' v' w').keeps s (.inl c) fun h => hc (Sum.inl.inj h)) hp
    rw [getCube_none c v w s hp, getCube_none c v w _ this]
  | some p =>
    cases hq : s.prop c' with
    | none =>
      have : (Shallot.getCube c v w s).2.prop c' = none := by
        by_cases hc : c' = c
        · subst hc
          rw [hp] at hq
          cases hq
        · exact Eq.trans ((getCube_reader c v w).keeps s (.inl c') fun h => hc (Sum.inl.inj h)) hq
      rw [getCube_none c' v' w' s hq, getCube_none c' v' w' _ this]
    | some q =>
      obtain ⟨a, b, oe, h⟩ := getCube_shape c v w p.mask p.data.shape s.combinedMask
      obtain ⟨a', b', oe', h'⟩ := getCube_shape c' v' w' q.mask q.data.shape s.combinedMask
      rw [h s p hp rfl rfl rfl, h' s q hq rfl rfl rfl]
      simp only
      by_cases hc : c = c'
      · subst hc
        obtain rfl : p = q := Option.some.inj (hp.symm.trans hq)
        rw [h' (s.setProp _ c) { p with data := ⟨p.data.shape, putWhere .nan b (putWhere .nan a p.data.data)⟩ } (by
            rw [setProp_prop, if_pos rfl]) rfl rfl (combinedMask_data s c p _ hp),
          h (s.setProp _ c) { p with data := ⟨p.data.shape, putWhere .nan b' (putWhere .nan a' p.data.data)⟩ } (by
            rw [setProp_prop, if_pos rfl]) rfl rfl (combinedMask_data s c p _ hp)]
        simp only [setProp_twice]
        rw [putWhere_comm _ b a', putWhere_comm _ b b', putWhere_comm _ a a', putWhere_comm _ a b']
      · rw [h' (s.setProp _ c) q (by rw [setProp_prop, if_neg (Ne.symm hc)]; exact hq) rfl rfl
            (combinedMask_data s c p _ hp),
          h (s.setProp _ c') p (by rw [setProp_prop, if_neg hc]; exact hp) rfl rfl (combinedMask_data s c' q _ hq)]
        exact setProp_comm s _ _ hc

/-- The calls that read a property. -/
def Spec.ReadsCube : GridOp K → Prop
  | .get _ _ _ | .getFit _ _ => True
  | _ => False

theorem getFit_exec (v w : PyVal K) (s : Shallot K) :
    (GridOp.getFit v w).exec s = (GridOp.get .gradientFit v w).exec s := by
  show (Shallot.getGradientFit v w s).2 = (Shallot.getCube .gradientFit v w s).2
  unfold Shallot.getGradientFit
  rw [Meth.get_bind]
  by_cases h : s.gradientFit = none
  · rw [if_pos h, getCube_none .gradientFit v w s h]
    rfl
  · rw [if_neg h]
    rcases hr : Shallot.getCube .gradientFit v w s with ⟨r | r, t⟩
    · rw [bind_failed _ _ _ _ _ hr]
    · rw [bind_ok _ _ _ _ _ hr]
      rfl

theorem as_get (op : GridOp K) (h : ReadsCube op) : ∃ c v w, ∀ s : Shallot K, op.exec s = (Shallot.getCube c v w s).2 := by
  cases op <;> first | exact absurd h id | skip
  · exact ⟨_, _, _, fun _ => rfl⟩
  · exact ⟨_, _, _, getFit_exec _ _⟩

/-- **C143** Whatever properties are read, with whatever flags, and whether the calls succeed: the grid that remains
depends neither on the order of the calls nor on how often each was made. -/
theorem C143_any_order (ops ops' : List (GridOp K)) (h : ∀ op ∈ ops, ReadsCube op)
    (hsame : ∀ op, op ∈ ops ↔ op ∈ ops') (s : Shallot K) : runGrid ops s = runGrid ops' s := by
  have comm : ∀ x y : GridOp K, ReadsCube x → ReadsCube y → ∀ s, y.exec (x.exec s) = x.exec (y.exec s) := by
    intro x y hx hy s
    obtain ⟨c, v, w, e⟩ := as_get x hx
    obtain ⟨c', v', w', e'⟩ := as_get y hy
    rw [e, e', e', e]
    exact getCube_comm c c' v w v' w' s
  have idem : ∀ x : GridOp K, ReadsCube x → ∀ s, x.exec (x.exec s) = x.exec s := by
    intro x hx s
    obtain ⟨c, v, w, e⟩ := as_get x hx
    rw [e, e, getCube_again]
  have pull : ∀ (l : List (GridOp K)) (x : GridOp K), (∀ op ∈ l, ReadsCube op) → ReadsCube x → ∀ s,
      runGrid l (x.exec s) = x.exec (runGrid l s) := by
    intro l x hl hx
    induction l with
    | nil => exact fun s => rfl
    | cons y l ih =>
      intro s
      rw [runGrid_cons, runGrid_cons, comm x y hx (hl y (by simp)), ih fun o ho => hl o (by simp [ho])]
  have drop : ∀ (l : List (GridOp K)) (x : GridOp K), (∀ op ∈ l, ReadsCube op) → x ∈ l → ∀ s,
      x.exec (runGrid l s) = runGrid l s := by
    intro l x hl hx
    induction l with
    | nil => simp at hx
    | cons y l ih =>
      intro s
      have hl' : ∀ op ∈ l, ReadsCube op := fun o ho => hl o (by simp [ho])
      rw [runGrid_cons]
      rcases List.mem_cons.1 hx with rfl | hx
      · rw [pull l x hl' (hl x (by simp)), idem x (hl x (by simp))]
      · exact ih hl' hx _
  have absorb : ∀ (l m : List (GridOp K)), (∀ op ∈ l, ReadsCube op) → (∀ op ∈ m, op ∈ l) → ∀ s,
      runGrid m (runGrid l s) = runGrid l s := by
    intro l m hl hm s
    induction m with
    | nil => rfl
    | cons x m ih =>
      rw [runGrid_cons, drop l x hl (hm x (by simp)), ih fun o ho => hm o (by simp [ho])]
  have swap : ∀ (l m : List (GridOp K)), (∀ op ∈ l, ReadsCube op) → (∀ op ∈ m, ReadsCube op) → ∀ s,
      runGrid m (runGrid l s) = runGrid l (runGrid m s) := by
    intro l m hl hm
    induction m with
    | nil => exact fun s => rfl
    | cons x m ih =>
      intro s
      rw [runGrid_cons, runGrid_cons, ← pull l x hl (hm x (by simp)), ih fun o ho => hm o (by simp [ho])]
  have h' : ∀ op ∈ ops', ReadsCube op := fun o ho => h o ((hsame o).2 ho)
  rw [← absorb ops ops' h (fun o ho => (hsame o).2 ho) s, swap ops ops' h h',
    absorb ops' ops h' (fun o ho => (hsame o).1 ho)]

end

/-- Non-vacuity: three readings that change the grid, in another order and with one of them made twice. -/
theorem C143_witness : ∃ s : Shallot ℝ, Sound s ∧
    (GridOp.get .diskRadius (.bool true) (.bool true)).exec s ≠ s ∧
    runGrid [.get .diskRadius (.bool true) (.bool true), .get .tilt (.bool true) (.bool false),
        .getFit (.int 1) (.bool true)] s =
      runGrid [.get .tilt (.bool true) (.bool false), .getFit (.int 1) (.bool true),
        .get .diskRadius (.bool true) (.bool true), .get .tilt (.bool true) (.bool false)] s := by
  obtain ⟨s₀, s, h1, h2, hs, hm, R, hR, hv⟩ := throwAway_masked
  obtain ⟨d, s', d', h, hne, -, -⟩ := C43_false s hs .diskRadius s.diskRadius rfl 25 (.fin R) hv (by simp) hm
  refine ⟨s, hs, ?_, C143_any_order _ _ (by simp [ReadsCube]) (fun op => by simp; tauto) s⟩
  show (Shallot.getCube .diskRadius (.bool true) (.bool true) s).2 ≠ s
  rw [h]
  exact hne

end Beyonce
