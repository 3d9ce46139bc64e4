import Verif.Report
import Verif.Props.GridGradient
import Verif.Props.Viewer

/-!
# Properties C76 – C78: printing properties and gradients
-/

set_option linter.unusedSectionVars false

namespace Beyonce
open Spec

section
variable {K : Type} [Field K] [LinearOrder K] [IsStrictOrderedRing K]

/-- There is no number among the values. -/
def Spec.AllNan (l : List (XF K)) : Prop := ∀ x ∈ l, x = .nan

/-- The object can be printed. -/
def Spec.Prints {α : Type} (e : Except Err α) : Prop := ∃ r, e = .ok r

/-! ## C76: when printing works -/

theorem prop_report_eq (p : GProp K) (lo hi : XF K) (h1 : p.vmin = some lo) (h2 : p.vmax = some hi) :
    p.report = .ok ⟨pretty p.name.str, p.unit.symbol, lo, hi, nanmean p.data.data,
      nanmedian p.data.data, p.mask.map maskedPercentage⟩ := by
  unfold GProp.report
  rw [h1, h2]
  rfl

theorem prop_report_cases (p : GProp K) :
    ((∃ lo hi, p.vmin = some lo ∧ p.vmax = some hi) ∧ Prints p.report) ∨
    ((p.vmin = none ∨ p.vmax = none) ∧ p.report = .error .typeError) := by
  cases h1 : p.vmin with
  | none => right; refine ⟨Or.inl rfl, ?_⟩; unfold GProp.report; rw [h1]; rfl
  | some lo =>
    cases h2 : p.vmax with
    | none => right; refine ⟨Or.inr rfl, ?_⟩; unfold GProp.report; rw [h1, h2]; rfl
    | some hi => left; exact ⟨⟨lo, hi, rfl, rfl⟩, _, prop_report_eq p lo hi h1 h2⟩

theorem setColors_limits (c n : PyVal K) (p : GProp K) :
    (GProp.setColors c n p).2.vmin = p.vmin ∧ (GProp.setColors c n p).2.vmax = p.vmax ∧
    (GProp.setColors c n p).2.data = p.data := by
  unfold GProp.setColors
  generalize string (if c = .none then .str "viridis" else c) = c'
  generalize number (if n = .none then .int 11 else n) (.bool true) (.int 2) = n'
  cases c' with
  | error e => exact ⟨rfl, rfl, rfl⟩
  | ok c' =>
    cases n' with
    | error e => exact ⟨rfl, rfl, rfl⟩
    | ok n' => exact ⟨rfl, rfl, rfl⟩

theorem setContrast_vmin (a b c n : PyVal K) (p : GProp K) :
    (GProp.setContrast a b c n p).2.vmin = (GProp.setLimits a b p).2.vmin ∧
    (GProp.setContrast a b c n p).2.vmax = (GProp.setLimits a b p).2.vmax := by
  unfold GProp.setContrast
  rw [Meth.bind_apply]
  generalize GProp.setLimits a b p = r
  obtain ⟨r, q⟩ := r
  cases r with
  | error e => exact ⟨rfl, rfl⟩
  | ok u => exact ⟨(setColors_limits c n q).1, (setColors_limits c n q).2.1⟩

theorem setContrast_limits (a b c n : PyVal K) (p : GProp K) :
    (AllNan p.data.data ∧ (GProp.setContrast a b c n p).2.vmin = none ∧
      (GProp.setContrast a b c n p).2.vmax = none) ∨
    (¬ AllNan p.data.data ∧
      ((GProp.setContrast a b c n p).2.vmin = p.vmin ∨
        ∃ x, (GProp.setContrast a b c n p).2.vmin = some x) ∧
      ((GProp.setContrast a b c n p).2.vmax = p.vmax ∨
        ∃ x, (GProp.setContrast a b c n p).2.vmax = some x)) := by
  rw [(setContrast_vmin a b c n p).1, (setContrast_vmin a b c n p).2]
  unfold GProp.setLimits
  rw [Meth.get_bind]
  by_cases hall : p.data.data.all XF.isNan = true
  · rw [if_pos hall]
    exact Or.inl ⟨(all_isNan _).1 hall, rfl, rfl⟩
  · rw [if_neg hall]
    refine Or.inr ⟨fun h => hall ((all_isNan _).2 h), ?_⟩
    cases h1 : number (limitOr a (nanmin p.data.data)) with
    | error e => exact ⟨Or.inl rfl, Or.inl rfl⟩
    | ok lo =>
      rw [Meth.lift_ok_bind, Meth.modify_bind]
      cases h2 : number (limitOr b (nanmax p.data.data)) with
      | error e => exact ⟨Or.inr ⟨_, rfl⟩, Or.inl rfl⟩
      | ok hi => exact ⟨Or.inr ⟨_, rfl⟩, Or.inr ⟨_, rfl⟩⟩

theorem allNan_later {old new : List (XF K)} (hl : new.length = old.length)
    (h : ∀ i : ℕ, new[i]? = old[i]? ∨ new[i]? = some .nan) (ho : AllNan old) : AllNan new := by
  intro x hx
  obtain ⟨i, hi⟩ := List.mem_iff_getElem?.1 hx
  rcases h i with h | h
  · rw [hi] at h
    exact ho x (List.mem_of_getElem? h.symm)
  · rw [hi] at h
    exact Option.some.inj h

theorem exec_value_or_nan (op : PropOp K) (p : GProp K) :
    (op.exec p).data.data.length = p.data.data.length ∧
    ∀ i : ℕ, (op.exec p).data.data[i]? = p.data.data[i]? ∨ (op.exec p).data.data[i]? = some .nan :=
  (C31_value_or_nan [op] p).2

theorem exec_limits (op : PropOp K) (p : GProp K) (h : ∀ a b c n, op ≠ .setContrast a b c n) :
    (op.exec p).vmin = p.vmin ∧ (op.exec p).vmax = p.vmax := by
  cases op with
  | setMask v =>
    rcases setMask_cases v p with ⟨a, -, -, -, h⟩ | ⟨⟨e, h⟩, -⟩ <;> simp [PropOp.exec, h]
  | getData v =>
    rcases getData_cases v p with ⟨m, -, -, -, h⟩ | h <;> simp [PropOp.exec, h]
  | setContrast a b c n => exact absurd rfl (h a b c n)

/-- The limits are there if there is a number. -/
def Limited (p : GProp K) : Prop := ¬ AllNan p.data.data → p.vmin ≠ none ∧ p.vmax ≠ none

theorem exec_limited (op : PropOp K) (p : GProp K) (hp : Limited p) : Limited (op.exec p) := by
  intro hn
  have hn' : ¬ AllNan p.data.data := fun h =>
    hn (allNan_later (exec_value_or_nan op p).1 (exec_value_or_nan op p).2 h)
  obtain ⟨h1, h2⟩ := hp hn'
  by_cases hc : ∀ a b c n, op ≠ .setContrast a b c n
  · rw [(exec_limits op p hc).1, (exec_limits op p hc).2]
    exact ⟨h1, h2⟩
  · push Not at hc
    obtain ⟨a, b, c, n, rfl⟩ := hc
    rcases setContrast_limits a b c n p with ⟨h, -, -⟩ | ⟨-, h3, h4⟩
    · exact absurd h hn'
    · simp only [PropOp.exec]
      refine ⟨?_, ?_⟩
      · rcases h3 with h3 | ⟨x, h3⟩
        · rw [h3]; exact h1
        · rw [h3]; simp
      · rcases h4 with h4 | ⟨x, h4⟩
        · rw [h4]; exact h2
        · rw [h4]; simp

theorem runProp_limited (ops : List (PropOp K)) (p : GProp K) (hp : Limited p) :
    Limited (runProp ops p) := by
  induction ops generalizing p with
  | nil => exact hp
  | cons op ops ih => exact ih _ (exec_limited op p hp)

theorem new_limited {name : PropName} {unit : PropUnit} {d : PyVal K} {g : GridParams K} {p : GProp K}
    (h : GProp.new name unit d g = .ok p) : Limited p := by
  obtain ⟨a, -, -, -, rfl⟩ := (prop_new_ok_iff _ _ _ _ _).1 h
  intro hn
  exact ⟨fun h => hn ((nanmin_spec _).1.1 h), fun h => hn ((nanmax_spec _).1.1 h)⟩

theorem limited_prints {p : GProp K} (hp : Limited p) (hn : ¬ AllNan p.data.data) : Prints p.report := by
  rcases prop_report_cases p with ⟨-, h⟩ | ⟨h, -⟩
  · exact h
  · rcases h with h | h
    · exact absurd h (hp hn).1
    · exact absurd h (hp hn).2

/-- **C76, for properties** (partial: the property must hold a number) Whatever was called since the
property was made, in whatever order and with whatever arguments, it can be printed as long as one of
its elements is a number. -/
theorem C76_property_partial (name : PropName) (unit : PropUnit) (d : PyVal K) (g : GridParams K)
    (p : GProp K) (h : GProp.new name unit d g = .ok p) (ops : List (PropOp K))
    (hn : ¬ AllNan (runProp ops p).data.data) : Prints (runProp ops p).report :=
  limited_prints (runProp_limited ops p (new_limited h)) hn

/-- **C76, exactly when no contrast was set** A property whose contrast was never set can be printed if
and only if it was made from data with a number. -/
theorem C76_contrast_never_set (name : PropName) (unit : PropUnit) (d : PyVal K) (g : GridParams K)
    (p : GProp K) (h : GProp.new name unit d g = .ok p) (ops : List (PropOp K))
    (hc : ∀ a b c n, PropOp.setContrast a b c n ∉ ops) :
    Prints (runProp ops p).report ↔ ¬ AllNan p.data.data := by
  have hv : (runProp ops p).vmin = p.vmin ∧ (runProp ops p).vmax = p.vmax := by
    clear h
    induction ops generalizing p with
    | nil => exact ⟨rfl, rfl⟩
    | cons op ops ih =>
      have h1 := ih (op.exec p) (fun a b c n h => hc a b c n (List.mem_cons_of_mem _ h))
      have h2 := exec_limits op p (fun a b c n h => hc a b c n (h ▸ List.mem_cons_self))
      exact ⟨h1.1.trans h2.1, h1.2.trans h2.2⟩
  obtain ⟨a, -, -, -, rfl⟩ := (prop_new_ok_iff _ _ _ _ _).1 h
  constructor
  · rintro ⟨r, hr⟩ ha
    rcases prop_report_cases (runProp ops _) with ⟨⟨lo, hi, h1, -⟩, -⟩ | ⟨-, h1⟩
    · rw [hv.1] at h1
      have := (nanmin_spec _).1.2 ha
      rw [show nanmin a.data = some lo from h1] at this
      cases this
    · rw [hr] at h1; cases h1
  · intro hn
    rcases prop_report_cases (runProp ops _) with ⟨-, h1⟩ | ⟨h1 | h1, -⟩
    · exact h1
    · rw [hv.1] at h1; exact absurd ((nanmin_spec _).1.1 h1) hn
    · rw [hv.2] at h1; exact absurd ((nanmax_spec _).1.1 h1) hn

/-- **C76 is false** A property made from nothing but NaN can never be printed: `print` raises
`TypeError`, whatever was called before. -/
theorem C76_false_all_nan (name : PropName) (unit : PropUnit) (d : PyVal K) (g : GridParams K)
    (p : GProp K) (h : GProp.new name unit d g = .ok p) (hn : AllNan p.data.data)
    (ops : List (PropOp K)) : (runProp ops p).report = .error .typeError := by
  have inv : AllNan (runProp ops p).data.data ∧ (runProp ops p).vmin = none := by
    have h0 : p.vmin = none := by
      obtain ⟨a, -, -, -, rfl⟩ := (prop_new_ok_iff _ _ _ _ _).1 h
      exact (nanmin_spec _).1.2 hn
    clear h
    induction ops generalizing p with
    | nil => exact ⟨hn, h0⟩
    | cons op ops ih =>
      refine ih _ (allNan_later (exec_value_or_nan op p).1 (exec_value_or_nan op p).2 hn) ?_
      by_cases hc : ∀ a b c n, op ≠ .setContrast a b c n
      · rw [(exec_limits op p hc).1]; exact h0
      · push Not at hc
        obtain ⟨a, b, c, n, rfl⟩ := hc
        rcases setContrast_limits a b c n p with ⟨-, h, -⟩ | ⟨h, -, -⟩
        · exact h
        · exact absurd hn h
  rcases prop_report_cases (runProp ops p) with ⟨⟨lo, hi, h1, -⟩, -⟩ | ⟨-, h1⟩
  · rw [inv.2] at h1; cases h1
  · exact h1

example : ∃ p : GProp ℚ, GProp.new .tilt .degree (.arr ⟨"float64", [1, 2, 3],
    [.nan, .nan, .nan, .nan, .nan, .nan]⟩) (gridOf (.fin 0) (.fin 1) 2 (.fin 0) (.fin 1) 1 (.fin 2) 2) =
    .ok p ∧ AllNan p.data.data := by
  refine ⟨_, (prop_new_ok_iff _ _ _ _ _).2 ⟨_, rfl, rfl, ?_, rfl⟩, ?_⟩
  · decide +kernel
  · intro x hx
    simpa using hx

example : ¬ AllNan (runProp [.setMask mask123, .getData (.bool true)] cube123).data.data := by
  intro h
  have h1 : (runProp [.setMask mask123, .getData (.bool true)] cube123).data.data =
    [.nan, .fin 2, .nan, .fin 4, .nan, .fin 6] := by decide +kernel
  rw [h1] at h
  have := h (.fin 2) (by simp)
  cases this

/-! ### Gradients -/

/-- A call of one of the methods of a `GridGradient` that touch its state. -/
inductive GradOp (K : Type)
  | prop (op : PropOp K)
  | determineMask (measured orbital transmission error : PyVal K)

/-- The state after the call. -/
def GradOp.exec : GradOp K → GGrad K → GGrad K
  | .prop op, g => { g with prop := op.exec g.prop }
  | .determineMask a b c d, g => (GGrad.determineMask a b c d g).2

/-- A sequence of calls by a user who catches every exception. -/
def runGrad (ops : List (GradOp K)) (g : GGrad K) : GGrad K := ops.foldl (fun g op => op.exec g) g

/-- A mask comes with the values it was determined from. -/
def Known (g : GGrad K) : Prop :=
  g.prop.mask ≠ none → g.measured ≠ none ∧ g.error ≠ none ∧ g.orbital ≠ none ∧ g.transmission ≠ none

theorem grad_new_cases {d : PyVal K} {params : GridParams K} {x : PyVal K} {g : GGrad K}
    (h : GGrad.new d params x = .ok g) : ∃ p, GProp.new .gradient .none d params = .ok p ∧
      g = ⟨p, x, none, none, none, none⟩ ∧ p.mask = none := by
  unfold GGrad.new at h
  cases h1 : GProp.new .gradient .none d params with
  | error e => rw [h1, error_bind] at h; cases h
  | ok p =>
    rw [h1, ok_bind] at h
    cases h2 : number x with
    | error e => rw [h2, error_bind] at h; cases h
    | ok y =>
      rw [h2, ok_bind] at h
      cases h
      obtain ⟨rfl, -⟩ := (number_default _ _).1 h2
      obtain ⟨a, -, -, -, rfl⟩ := (prop_new_ok_iff _ _ _ _ _).1 h1
      exact ⟨_, rfl, rfl, rfl⟩

theorem determineMask_known (a b c d : PyVal K) (g : GGrad K) (hg : Known g) :
    Known (GGrad.determineMask a b c d g).2 := by
  rcases determineMask_cases a b c d g with ⟨-, e, h⟩ | ⟨-, -, e, h⟩ | ⟨-, -, -, e, h⟩ |
    ⟨-, -, -, -, e, h⟩ | ⟨-, -, -, -, ⟨e, -, h⟩ | ⟨q, -, ⟨-, h⟩ | ⟨-, h⟩⟩⟩ <;> rw [h]
  · exact hg
  · intro hm; obtain ⟨-, h2, h3, h4⟩ := hg hm; exact ⟨by simp, h2, h3, h4⟩
  · intro hm; obtain ⟨-, h2, h3, h4⟩ := hg hm; exact ⟨by simp, h2, by simp, h4⟩
  · intro hm; obtain ⟨-, h2, h3, h4⟩ := hg hm; exact ⟨by simp, h2, by simp, by simp⟩
  all_goals intro hm; exact ⟨by simp [stored], by simp [stored], by simp [stored], by simp [stored]⟩

theorem determineMask_limits (a b c d : PyVal K) (g : GGrad K) :
    (GGrad.determineMask a b c d g).2.prop.data = g.prop.data ∧
    (GGrad.determineMask a b c d g).2.prop.vmin = g.prop.vmin ∧
    (GGrad.determineMask a b c d g).2.prop.vmax = g.prop.vmax := by
  rcases determineMask_cases a b c d g with ⟨-, e, h⟩ | ⟨-, -, e, h⟩ | ⟨-, -, -, e, h⟩ |
    ⟨-, -, -, -, e, h⟩ | ⟨-, -, -, -, ⟨e, -, h⟩ | ⟨q, -, ⟨-, h⟩ | ⟨-, h⟩⟩⟩ <;> rw [h] <;>
    exact ⟨rfl, rfl, rfl⟩

theorem determineMask_limited (a b c d : PyVal K) (g : GGrad K) (hg : Limited g.prop) :
    Limited (GGrad.determineMask a b c d g).2.prop := by
  obtain ⟨h1, h2, h3⟩ := determineMask_limits a b c d g
  unfold Limited
  rw [h1, h2, h3]
  exact hg

theorem exec_mask (op : PropOp K) (p : GProp K) (h : ∀ v, op ≠ .setMask v) :
    (op.exec p).mask = p.mask := by
  cases op with
  | setMask v => exact absurd rfl (h v)
  | getData v => rcases getData_cases v p with ⟨m, -, -, -, h⟩ | h <;> simp [PropOp.exec, h]
  | setContrast a b c n => exact (setContrast_frame a b c n p).2.1

theorem known_measured {g : GGrad K} (hg : Known g) : Prints g.measuredReport := by
  unfold GGrad.measuredReport
  cases hm : g.prop.mask with
  | none => exact ⟨_, rfl⟩
  | some m =>
    obtain ⟨h1, h2, h3, h4⟩ := hg (by rw [hm]; simp)
    obtain ⟨x1, h1⟩ := Option.ne_none_iff_exists'.1 h1
    obtain ⟨x2, h2⟩ := Option.ne_none_iff_exists'.1 h2
    obtain ⟨x3, h3⟩ := Option.ne_none_iff_exists'.1 h3
    obtain ⟨x4, h4⟩ := Option.ne_none_iff_exists'.1 h4
    simp only [h1, h2, h3, h4]
    exact ⟨_, rfl⟩

theorem grad_prints {g : GGrad K} (hk : Known g) (hp : Prints g.prop.report) : Prints g.report := by
  obtain ⟨r, hr⟩ := hp
  obtain ⟨m, hm⟩ := known_measured hk
  unfold GGrad.report
  rw [hr, hm]
  exact ⟨_, rfl⟩

theorem runGrad_inv (ops : List (GradOp K)) (hm : ∀ v, GradOp.prop (.setMask v) ∉ ops) (g : GGrad K)
    (h1 : Known g) (h2 : Limited g.prop) : Known (runGrad ops g) ∧ Limited (runGrad ops g).prop := by
  induction ops generalizing g with
  | nil => exact ⟨h1, h2⟩
  | cons op ops ih =>
    refine ih (fun v h => hm v (List.mem_cons_of_mem _ h)) _ ?_ ?_
    · cases op with
      | prop op =>
        have := exec_mask op g.prop (fun v h => hm v (h ▸ List.mem_cons_self))
        intro h
        simp only [GradOp.exec, this] at h
        exact h1 h
      | determineMask a b c d => exact determineMask_known a b c d g h1
    · cases op with
      | prop op => exact exec_limited op g.prop h2
      | determineMask a b c d => exact determineMask_limited a b c d g h2

/-- **C76, for gradients** (partial: no `set_mask`, and the gradient must hold a number) Whatever else
was called since the gradient was made, it can be printed. -/
theorem C76_gradient_partial (d : PyVal K) (params : GridParams K) (x : PyVal K) (g : GGrad K)
    (h : GGrad.new d params x = .ok g) (ops : List (GradOp K))
    (hm : ∀ v, GradOp.prop (.setMask v) ∉ ops) (hn : ¬ AllNan (runGrad ops g).prop.data.data) :
    Prints (runGrad ops g).report := by
  obtain ⟨p, h1, rfl, h2⟩ := grad_new_cases h
  obtain ⟨h3, h4⟩ := runGrad_inv ops hm ⟨p, x, none, none, none, none⟩ (fun h => absurd h2 h)
    (new_limited h1)
  exact grad_prints h3 (limited_prints h4 hn)

/-- **C76 is false for gradients** A gradient that was given a mask by `set_mask` and whose mask was
never determined cannot be printed: `print` raises `TypeError`. -/
theorem C76_false_set_mask (d : PyVal K) (params : GridParams K) (x : PyVal K) (g : GGrad K)
    (h : GGrad.new d params x = .ok g) (ops : List (PropOp K))
    (hm : (runProp ops g.prop).mask ≠ none) :
    (runGrad (ops.map .prop) g).report = .error .typeError := by
  obtain ⟨p, h1, rfl, h2⟩ := grad_new_cases h
  have he : ∀ (ops : List (PropOp K)) (p : GProp K), runGrad (ops.map .prop) ⟨p, x, none, none, none, none⟩ =
      ⟨runProp ops p, x, none, none, none, none⟩ := by
    intro ops
    induction ops with
    | nil => intro p; rfl
    | cons op ops ih => intro p; exact ih _
  rw [he]
  simp only at hm
  obtain ⟨m, hm⟩ := Option.ne_none_iff_exists'.1 hm
  unfold GGrad.report
  rcases prop_report_cases (runProp ops p) with ⟨-, r, hr⟩ | ⟨-, hr⟩
  · rw [hr, ok_bind]
    unfold GGrad.measuredReport
    simp only [hm]
    rfl
  · rw [hr]; rfl

example : ∃ g : GGrad ℚ, GGrad.new (.arr ⟨"float64", [1, 2, 3],
    [.fin (1 / 10), .fin (1 / 2), .nan, .fin (3 / 10), .fin 1, .fin 0]⟩)
    (gridOf (.fin 0) (.fin 1) 2 (.fin 0) (.fin 1) 1 (.fin 2) 2) (.float (.fin (1 / 4))) = .ok g ∧
    (runProp [.setMask mask123] g.prop).mask ≠ none := by
  refine ⟨{ grad123 with prop := { grad123.prop with vmin := some (.fin 0), vmax := some (.fin 1) } }, ?_⟩
  decide +kernel

/-! ## C77: the numbers that are printed -/

/-- The finite numbers among the values. -/
def Spec.finites : List (XF K) → List K
  | [] => []
  | .fin x :: l => x :: finites l
  | _ :: l => finites l

/-- Every value is finite or NaN. -/
def Spec.FiniteOrNan (l : List (XF K)) : Prop := ∀ x ∈ l, x = .nan ∨ ∃ v, x = .fin v

theorem mem_finites (l : List (XF K)) (v : K) : v ∈ finites l ↔ XF.fin v ∈ l := by
  induction l with
  | nil => simp [finites]
  | cons x l ih => cases x <;> simp [finites, ih]

theorem numbersOf_eq {l : List (XF K)} (h : FiniteOrNan l) : numbersOf l = (finites l).map .fin := by
  induction l with
  | nil => rfl
  | cons x l ih =>
    have ih := ih (fun y hy => h y (List.mem_cons_of_mem _ hy))
    unfold numbersOf at ih ⊢
    rcases h x List.mem_cons_self with rfl | ⟨v, rfl⟩
    · simpa [finites] using ih
    · simp only [List.filter_cons, XF.isNan_fin, Bool.not_false, if_true, finites, List.map_cons]
      rw [ih]

theorem sumOf_fin (l : List K) : sumOf (l.map XF.fin) = .fin l.sum := by
  induction l with
  | nil => rfl
  | cons x l ih =>
    unfold sumOf at ih ⊢
    rw [List.map_cons, List.foldr_cons, ih, List.sum_cons]
    rfl

theorem finites_ne_nil {l : List (XF K)} (h : FiniteOrNan l) (hn : ¬ AllNan l) : finites l ≠ [] := by
  intro he
  refine hn fun x hx => ?_
  rcases h x hx with rfl | ⟨v, rfl⟩
  · rfl
  · have := (mem_finites l v).2 hx
    rw [he] at this
    cases this

theorem nanmean_eq {l : List (XF K)} (h : FiniteOrNan l) (hn : ¬ AllNan l) :
    nanmean l = .fin ((finites l).sum / ((finites l).length : K)) := by
  unfold nanmean
  rw [numbersOf_eq h, sumOf_fin, List.length_map]
  have : ((finites l).length : K) ≠ 0 := by
    rw [Nat.cast_ne_zero]
    intro h0
    exact finites_ne_nil h hn (List.length_eq_zero_iff.1 h0)
  simp [XF.div, this]

/-- `m` is the median of the numbers: the mean of the lower median `a`, the least of them that half of
them do not exceed, and the upper median `b`, the greatest of them that half of them reach. -/
def Spec.IsMedian (l : List K) (m : K) : Prop :=
  ∃ a b, a ∈ l ∧ b ∈ l ∧ m = (a + b) / 2 ∧
    l.length ≤ 2 * l.countP (fun x => decide (x ≤ a)) ∧ 2 * l.countP (fun x => decide (x < a)) < l.length ∧
    l.length ≤ 2 * l.countP (fun x => decide (b ≤ x)) ∧ 2 * l.countP (fun x => decide (b < x)) < l.length

theorem sorted_counts {s : List K} (hs : s.Pairwise (· ≤ ·)) (i : ℕ) (hi : i < s.length) :
    i + 1 ≤ s.countP (fun x => decide (x ≤ s[i])) ∧ s.countP (fun x => decide (x < s[i])) ≤ i ∧
    s.length - i ≤ s.countP (fun x => decide (s[i] ≤ x)) ∧
    s.countP (fun x => decide (s[i] < x)) ≤ s.length - (i + 1) := by
  have mono : ∀ j k (hj : j < s.length) (hk : k < s.length), j ≤ k → s[j] ≤ s[k] := by
    intro j k hj hk hjk
    rcases Nat.lt_or_eq_of_le hjk with h | rfl
    · exact List.pairwise_iff_getElem.1 hs j k hj hk h
    · exact le_refl _
  have split : ∀ (n : ℕ) (f : K → Bool), s.countP f = (s.take n).countP f + (s.drop n).countP f := by
    intro n f
    rw [← List.countP_append, List.take_append_drop]
  have inTake : ∀ n, ∀ x ∈ s.take n, ∃ j, ∃ h : j < s.length, j < n ∧ x = s[j] := by
    intro n x hx
    obtain ⟨j, hj, rfl⟩ := List.mem_iff_getElem.1 hx
    rw [List.length_take] at hj
    exact ⟨j, by omega, by omega, by rw [List.getElem_take]⟩
  have inDrop : ∀ n, ∀ x ∈ s.drop n, ∃ j, ∃ h : j < s.length, n ≤ j ∧ x = s[j] := by
    intro n x hx
    obtain ⟨j, hj, rfl⟩ := List.mem_iff_getElem.1 hx
    rw [List.length_drop] at hj
    exact ⟨n + j, by omega, by omega, by rw [List.getElem_drop]⟩
  refine ⟨?_, ?_, ?_, ?_⟩
  · rw [split (i + 1)]
    have : (s.take (i + 1)).countP (fun x => decide (x ≤ s[i])) = (s.take (i + 1)).length := by
      rw [List.countP_eq_length]
      intro x hx
      obtain ⟨j, hj, h1, rfl⟩ := inTake _ x hx
      exact decide_eq_true (mono j i hj hi (by omega))
    rw [this, List.length_take]
    omega
  · rw [split i]
    have : (s.drop i).countP (fun x => decide (x < s[i])) = 0 := by
      rw [List.countP_eq_zero]
      intro x hx
      obtain ⟨j, hj, h1, rfl⟩ := inDrop _ x hx
      simpa using mono i j hi hj h1
    rw [this]
    have := List.countP_le_length (p := fun x => decide (x < s[i])) (l := s.take i)
    rw [List.length_take] at this
    omega
  · rw [split i]
    have : (s.drop i).countP (fun x => decide (s[i] ≤ x)) = (s.drop i).length := by
      rw [List.countP_eq_length]
      intro x hx
      obtain ⟨j, hj, h1, rfl⟩ := inDrop _ x hx
      exact decide_eq_true (mono i j hi hj h1)
    rw [this, List.length_drop]
    omega
  · rw [split (i + 1)]
    have : (s.take (i + 1)).countP (fun x => decide (s[i] < x)) = 0 := by
      rw [List.countP_eq_zero]
      intro x hx
      obtain ⟨j, hj, h1, rfl⟩ := inTake _ x hx
      simpa using mono j i hj hi (by omega)
    rw [this]
    have := List.countP_le_length (p := fun x => decide (s[i] < x)) (l := s.drop (i + 1))
    rw [List.length_drop] at this
    omega

theorem sortedNumbers_eq {l : List (XF K)} (h : FiniteOrNan l) :
    sortedNumbers l = ((finites l).insertionSort (· ≤ ·)).map .fin := by
  unfold sortedNumbers
  rw [numbersOf_eq h]
  exact (List.map_insertionSort (r := fun a b : K => a ≤ b)
    (s := fun a b => XF.le a b = true) XF.fin (finites l) (by intro a _ b _; simp [XF.le])).symm

theorem nanmedian_eq {l : List (XF K)} (h : FiniteOrNan l) (hn : ¬ AllNan l) :
    ∃ m, nanmedian l = .fin m ∧ IsMedian (finites l) m := by
  obtain ⟨s, hs⟩ : ∃ s, s = (finites l).insertionSort (· ≤ ·) := ⟨_, rfl⟩
  have hp : s.Perm (finites l) := hs ▸ List.perm_insertionSort _ _
  have hsort : s.Pairwise (· ≤ ·) := hs ▸ List.pairwise_insertionSort (r := fun a b : K => a ≤ b) _
  have hlen : 0 < s.length := by
    rw [hp.length_eq]
    exact List.length_pos_iff.2 (finites_ne_nil h hn)
  have hget : ∀ i (hi : i < s.length), (s.map XF.fin).getD i .nan = .fin s[i] := by
    intro i hi
    simp [List.getD_eq_getElem?_getD, List.getElem?_map, List.getElem?_eq_getElem hi]
  have h1 : (s.length - 1) / 2 < s.length := by omega
  have h2 : s.length / 2 < s.length := by omega
  obtain ⟨a1, a2, -, -⟩ := sorted_counts hsort _ h1
  obtain ⟨-, -, b1, b2⟩ := sorted_counts hsort _ h2
  refine ⟨(s[(s.length - 1) / 2] + s[s.length / 2]) / 2, ?_, s[(s.length - 1) / 2], s[s.length / 2],
    hp.mem_iff.1 (List.getElem_mem h1), hp.mem_iff.1 (List.getElem_mem h2), rfl, ?_, ?_, ?_, ?_⟩
  · unfold nanmedian
    simp only [sortedNumbers_eq h, ← hs, List.length_map]
    rw [if_neg (by omega)]
    by_cases ho : s.length % 2 = 1
    · rw [if_pos ho, hget _ h2]
      have : (s.length - 1) / 2 = s.length / 2 := by omega
      simp only [this]
      congr 1
      ring
    · rw [if_neg ho]
      have : s.length / 2 - 1 = (s.length - 1) / 2 := by omega
      rw [this, hget _ h1, hget _ h2]
      simp [XF.add, XF.div]
  all_goals rw [← hp.countP_eq, ← hp.length_eq]; omega

/-- **C77** Whatever the history, the printed mean is the mean of the finite numbers in the data and the
printed median is their median. -/
theorem C77_mean_median (p : GProp K) (r : PropReport K) (h : p.report = .ok r)
    (hf : FiniteOrNan p.data.data) (hn : ¬ AllNan p.data.data) :
    r.mean = .fin ((finites p.data.data).sum / ((finites p.data.data).length : K)) ∧
    ∃ m, r.median = .fin m ∧ IsMedian (finites p.data.data) m := by
  rcases prop_report_cases p with ⟨⟨lo, hi, h1, h2⟩, -⟩ | ⟨-, h1⟩
  · rw [prop_report_eq p lo hi h1 h2] at h
    cases h
    exact ⟨nanmean_eq hf hn, nanmedian_eq hf hn⟩
  · rw [h1] at h; cases h

/-- `lo` and `hi` are the least and the greatest number among the values. -/
def Spec.Extremes (l : List (XF K)) (lo hi : XF K) : Prop :=
  lo ∈ l ∧ hi ∈ l ∧ lo ≠ .nan ∧ hi ≠ .nan ∧ ∀ x ∈ l, x ≠ .nan → LessEq lo x ∧ LessEq x hi

theorem extremes_of {l : List (XF K)} {lo hi : XF K} (h1 : nanmin l = some lo) (h2 : nanmax l = some hi) :
    Extremes l lo hi := by
  obtain ⟨a1, a2, a3⟩ := (nanmin_spec l).2 lo h1
  obtain ⟨b1, b2, b3⟩ := (nanmax_spec l).2 hi h2
  exact ⟨a1, b1, a2, b2, fun x hx hn => ⟨a3 x hx hn, b3 x hx hn⟩⟩

/-- **C77, for new properties** The printed limits of a property that was just made are the least and the
greatest number of its data. -/
theorem C77_new (name : PropName) (unit : PropUnit) (d : PyVal K) (g : GridParams K)
    (p : GProp K) (h : GProp.new name unit d g = .ok p) (r : PropReport K) (hr : p.report = .ok r) :
    Extremes p.data.data r.minimum r.maximum := by
  obtain ⟨a, -, -, -, rfl⟩ := (prop_new_ok_iff _ _ _ _ _).1 h
  rcases prop_report_cases (K := K) ⟨name, unit, g, ⟨a.shape, a.data⟩, none, nanmin a.data,
    nanmax a.data, "viridis", 11⟩ with ⟨⟨lo, hi, h1, h2⟩, -⟩ | ⟨-, h1⟩
  · rw [prop_report_eq _ lo hi h1 h2] at hr
    cases hr
    exact extremes_of h1 h2
  · rw [h1] at hr; cases hr

/-- **C77, after setting the contrast** The printed limits are the least and the greatest number of the
data after `set_contrast_parameters` without limits, whatever was called before. -/
theorem C77_contrast (p : GProp K) (ops : List (PropOp K)) (c n : PyVal K) (r : PropReport K)
    (hr : (runProp (ops ++ [.setContrast .none .none c n]) p).report = .ok r) :
    Extremes (runProp (ops ++ [.setContrast .none .none c n]) p).data.data r.minimum r.maximum := by
  have he : runProp (ops ++ [.setContrast .none .none c n]) p =
      (GProp.setContrast .none .none c n (runProp ops p)).2 := by
    unfold runProp
    rw [List.foldl_append]
    rfl
  rw [he] at hr ⊢
  obtain ⟨h1, h2⟩ := setContrast_vmin .none .none c n (runProp ops p)
  rw [setLimits_default] at h1 h2
  simp only at h1 h2
  rcases prop_report_cases (GProp.setContrast .none .none c n (runProp ops p)).2 with
    ⟨⟨lo, hi, h3, h4⟩, -⟩ | ⟨-, h3⟩
  · rw [prop_report_eq _ lo hi h3 h4] at hr
    cases hr
    rw [(setContrast_frame .none .none c n (runProp ops p)).1]
    exact extremes_of (h1.symm.trans h3) (h2.symm.trans h4)
  · rw [h3] at hr; cases hr

/-- No call gives limits of its own. -/
def Spec.DefaultLimits (ops : List (PropOp K)) : Prop :=
  ∀ a b c n, PropOp.setContrast a b c n ∈ ops → a = .none ∧ b = .none

/-- The limits bracket all numbers. -/
def Bracketed (p : GProp K) : Prop :=
  ∀ x ∈ p.data.data, x ≠ .nan → ∃ lo hi, p.vmin = some lo ∧ p.vmax = some hi ∧ LessEq lo x ∧ LessEq x hi

theorem bracketed_of {p : GProp K} (h1 : p.vmin = nanmin p.data.data) (h2 : p.vmax = nanmax p.data.data) :
    Bracketed p := by
  intro x hx hn
  cases h3 : nanmin p.data.data with
  | none => exact absurd ((nanmin_spec _).1.1 h3 x hx) hn
  | some lo =>
    cases h4 : nanmax p.data.data with
    | none => exact absurd ((nanmax_spec _).1.1 h4 x hx) hn
    | some hi =>
      obtain ⟨-, -, -, -, h⟩ := extremes_of h3 h4
      exact ⟨lo, hi, h1.trans h3, h2.trans h4, h x hx hn⟩

theorem mem_later {old new : List (XF K)} (h : ∀ i : ℕ, new[i]? = old[i]? ∨ new[i]? = some .nan)
    {x : XF K} (hx : x ∈ new) (hn : x ≠ .nan) : x ∈ old := by
  obtain ⟨i, hi⟩ := List.mem_iff_getElem?.1 hx
  rcases h i with h | h
  · exact List.mem_of_getElem? (h.symm.trans hi)
  · rw [hi] at h; exact absurd (Option.some.inj h) hn

theorem runProp_bracketed (ops : List (PropOp K)) (hd : DefaultLimits ops) (p : GProp K)
    (hp : Bracketed p) : Bracketed (runProp ops p) := by
  induction ops generalizing p with
  | nil => exact hp
  | cons op ops ih =>
    refine ih (fun a b c n h => hd a b c n (List.mem_cons_of_mem _ h)) _ ?_
    by_cases hc : ∀ a b c n, op ≠ .setContrast a b c n
    · intro x hx hn
      rw [(exec_limits op p hc).1, (exec_limits op p hc).2]
      exact hp x (mem_later (exec_value_or_nan op p).2 hx hn) hn
    · push Not at hc
      obtain ⟨a, b, c, n, rfl⟩ := hc
      obtain ⟨rfl, rfl⟩ := hd a b c n List.mem_cons_self
      obtain ⟨h1, h2⟩ := setContrast_vmin .none .none c n p
      rw [setLimits_default] at h1 h2
      simp only [PropOp.exec]
      refine bracketed_of ?_ ?_
      · rw [h1, (setContrast_frame .none .none c n p).1]
      · rw [h2, (setContrast_frame .none .none c n p).1]

theorem sum_above (l : List K) (lo : K) (h : ∀ x ∈ l, lo ≤ x) : (l.length : K) * lo ≤ l.sum := by
  have := List.card_nsmul_le_sum l lo h
  rwa [nsmul_eq_mul] at this

theorem sum_below (l : List K) (hi : K) (h : ∀ x ∈ l, x ≤ hi) : l.sum ≤ (l.length : K) * hi := by
  have := List.sum_le_card_nsmul l hi h
  rwa [nsmul_eq_mul] at this

/-- **C77, after any history** (partial: no limits of one's own; the limits may be wider than the data)
Whatever else was called since the property was made, every number left in its data and its printed mean
and median lie between the printed limits. -/
theorem C77_limits_partial (name : PropName) (unit : PropUnit) (d : PyVal K) (g : GridParams K)
    (p : GProp K) (h : GProp.new name unit d g = .ok p) (ops : List (PropOp K)) (hd : DefaultLimits ops)
    (hf : FiniteOrNan (runProp ops p).data.data) (hn : ¬ AllNan (runProp ops p).data.data)
    (r : PropReport K) (hr : (runProp ops p).report = .ok r) :
    (∀ x ∈ (runProp ops p).data.data, x ≠ .nan → LessEq r.minimum x ∧ LessEq x r.maximum) ∧
    LessEq r.minimum r.mean ∧ LessEq r.mean r.maximum ∧
    LessEq r.minimum r.median ∧ LessEq r.median r.maximum := by
  have hb : Bracketed (runProp ops p) := by
    refine runProp_bracketed ops hd p ?_
    obtain ⟨a, -, -, -, rfl⟩ := (prop_new_ok_iff _ _ _ _ _).1 h
    exact bracketed_of rfl rfl
  obtain ⟨hmean, m, hmed, a, b, ha, hb', hm, -⟩ := C77_mean_median _ r hr hf hn
  rcases prop_report_cases (runProp ops p) with ⟨⟨lo, hi, h1, h2⟩, -⟩ | ⟨-, h1⟩
  swap
  · rw [h1] at hr; cases hr
  rw [prop_report_eq _ lo hi h1 h2] at hr
  cases hr
  have hall : ∀ x ∈ (runProp ops p).data.data, x ≠ .nan → LessEq lo x ∧ LessEq x hi := by
    intro x hx hxn
    obtain ⟨lo', hi', h3, h4, h5⟩ := hb x hx hxn
    rw [h1] at h3; rw [h2] at h4
    cases h3; cases h4
    exact h5
  simp only at hmean hmed ⊢
  rw [hmean, hmed]
  have hfin : ∀ v ∈ finites (runProp ops p).data.data, LessEq lo (.fin v) ∧ LessEq (.fin v) hi :=
    fun v hv => hall _ ((mem_finites _ v).1 hv) (by simp)
  have hpos : (0 : K) < ((finites (runProp ops p).data.data).length : K) := by
    rw [Nat.cast_pos]
    exact List.length_pos_iff.2 (finites_ne_nil hf hn)
  refine ⟨hall, ?_, ?_, ?_, ?_⟩
  · cases lo with
    | fin lo =>
      have := sum_above (finites (runProp ops p).data.data) lo fun x hx => by
        have h3 := (hfin x hx).1
        rw [lessEq_iff] at h3
        simpa [XF.le] using h3
      rw [lessEq_iff]
      simp only [XF.le, decide_eq_true_eq]
      rw [le_div_iff₀ hpos]
      linarith
    | nan => have := (hfin a ha).1; rw [lessEq_iff] at this; cases this
    | pinf => have := (hfin a ha).1; rw [lessEq_iff] at this; cases this
    | ninf => rw [lessEq_iff]; rfl
  · cases hi with
    | fin hi =>
      have := sum_below (finites (runProp ops p).data.data) hi fun x hx => by
        have h3 := (hfin x hx).2
        rw [lessEq_iff] at h3
        simpa [XF.le] using h3
      rw [lessEq_iff]
      simp only [XF.le, decide_eq_true_eq]
      rw [div_le_iff₀ hpos]
      linarith
    | nan => have := (hfin a ha).2; rw [lessEq_iff] at this; cases this
    | ninf => have := (hfin a ha).2; rw [lessEq_iff] at this; cases this
    | pinf => rw [lessEq_iff]; rfl
  · have h3 := (hfin a ha).1
    have h4 := (hfin b hb').1
    rw [lessEq_iff] at h3 h4 ⊢
    cases lo with
    | fin lo =>
      simp only [XF.le, decide_eq_true_eq] at h3 h4 ⊢
      rw [hm]
      linarith
    | nan => cases h3
    | pinf => cases h3
    | ninf => rfl
  · have h3 := (hfin a ha).2
    have h4 := (hfin b hb').2
    rw [lessEq_iff] at h3 h4 ⊢
    cases hi with
    | fin hi =>
      simp only [XF.le, decide_eq_true_eq] at h3 h4 ⊢
      rw [hm]
      linarith
    | nan => cases h3
    | ninf => cases h3
    | pinf => rfl

example : cube123.report = .ok ⟨"Tilt", "$^o$", .fin 1, .fin 6, .fin (18 / 5), .fin 4, none⟩ := by
  decide +kernel

/-- **C77 is false: own limits** After `set_contrast_parameters(10, -3)` the printed minimum is above the
printed maximum and neither is in the data. -/
theorem C77_false_own : ∃ r, (runProp [.setContrast (.int 10) (.int (-3)) .none .none] cube123).report =
    .ok r ∧ r.minimum = .fin 10 ∧ r.maximum = .fin (-3) :=
  ⟨⟨"Tilt", "$^o$", .fin 10, .fin (-3), .fin (18 / 5), .fin 4, none⟩, by decide +kernel⟩

/-- **C77 is false: masked reads** After a masked read the printed minimum is that of the data before:
`1`, though every number that is left is at least `2`. -/
theorem C77_false_stale : ∃ r,
    (runProp [.setMask mask123, .getData (.bool true)] cube123).report = .ok r ∧ r.minimum = .fin 1 ∧
    (runProp [.setMask mask123, .getData (.bool true)] cube123).data.data =
      [.nan, .fin 2, .nan, .fin 4, .nan, .fin 6] :=
  ⟨⟨"Tilt", "$^o$", .fin 1, .fin 6, .fin 4, .fin 4, some (.fin (100 / 3))⟩, by decide +kernel⟩

/-! ## C78: the masked percentage -/

/-- The share of a mask's elements that are true, in percent. -/
def Spec.IsShare (m : List Bool) (q : K) : Prop :=
  q * (m.length : K) = 100 * ((m.filter id).length : K)

theorem maskedPercentage_spec (m : Mask) (hs : m.data.length = size m.shape) (hne : m.data ≠ []) :
    ∃ q : K, maskedPercentage m = .fin q ∧ IsShare m.data q ∧ 0 ≤ q ∧ q ≤ 100 ∧
      (q = 0 ↔ ∀ b ∈ m.data, b = false) ∧ (q = 100 ↔ ∀ b ∈ m.data, b = true) := by
  have hpos : (0 : K) < (m.data.length : K) := by
    rw [Nat.cast_pos]; exact List.length_pos_iff.2 hne
  have hcount : m.data.count true = (m.data.filter id).length := by
    rw [List.count, List.countP_eq_length_filter]
    congr 1
    refine List.filter_congr fun b _ => ?_
    cases b <;> rfl
  have hle : (m.data.filter id).length ≤ m.data.length := List.length_filter_le _ _
  refine ⟨100 * (((m.data.filter id).length : K) / (m.data.length : K)), ?_, ?_, ?_, ?_, ?_, ?_⟩
  · unfold maskedPercentage
    rw [show m.shape.prod = m.data.length from hs.symm, hcount]
    simp [XF.div, XF.mul, hpos.ne']
  · unfold IsShare
    field_simp
  · positivity
  · have : ((m.data.filter id).length : K) / (m.data.length : K) ≤ 1 := by
      rw [div_le_one hpos]; exact_mod_cast hle
    linarith
  · rw [mul_eq_zero, div_eq_zero_iff, Nat.cast_eq_zero, List.length_eq_zero_iff, List.filter_eq_nil_iff]
    simp [hne]
  · have h1 : (100 * (((m.data.filter id).length : K) / (m.data.length : K)) = 100) ↔
        (m.data.filter id).length = m.data.length := by
      rw [← Nat.cast_inj (R := K)]
      constructor
      · intro h
        have : ((m.data.filter id).length : K) / (m.data.length : K) = 1 := by linarith
        rwa [div_eq_one_iff_eq hpos.ne'] at this
      · intro h
        rw [h, div_self hpos.ne', mul_one]
    rw [h1, List.length_filter_eq_length_iff]
    simp

/-- **C78, for properties** The printed percentage is the share of masked elements; it is `0` exactly if
nothing is masked and `100` exactly if everything is; without a mask none is printed. -/
theorem C78_property (p : GProp K) (r : PropReport K) (h : p.report = .ok r) :
    (p.mask = none → r.masked = none) ∧
    ∀ m, p.mask = some m → m.data.length = size m.shape → m.data ≠ [] →
      ∃ q, r.masked = some (.fin q) ∧ IsShare m.data q ∧ 0 ≤ q ∧ q ≤ 100 ∧
        (q = 0 ↔ ∀ b ∈ m.data, b = false) ∧ (q = 100 ↔ ∀ b ∈ m.data, b = true) := by
  rcases prop_report_cases p with ⟨⟨lo, hi, h1, h2⟩, -⟩ | ⟨-, h1⟩
  · rw [prop_report_eq p lo hi h1 h2] at h
    cases h
    refine ⟨fun hm => by simp [hm], fun m hm hs hne => ?_⟩
    obtain ⟨q, hq, h3⟩ := maskedPercentage_spec (K := K) m hs hne
    exact ⟨q, by simp [hm, hq], h3⟩
  · rw [h1] at h; cases h

example : ∃ r, (runProp [.setMask mask123] cube123).report = .ok r ∧ r.masked = some (.fin (100 / 3)) :=
  ⟨⟨"Tilt", "$^o$", .fin 1, .fin 6, .fin (18 / 5), .fin 4, some (.fin (100 / 3))⟩, by decide +kernel⟩

end
end Beyonce
