import Verif.Props.Repeat

/-!
# Property C142: reading a grid point, the gradients and the closest point again

A reading is made of several readings of cubes and gradients.  Each of them can be repeated, and they do not disturb
each other: so that the whole can be repeated.
-/

set_option linter.unusedSectionVars false

namespace Beyonce
open Spec

section
variable {K : Type} [Field K] [LinearOrder K] [IsStrictOrderedRing K] [RealFns K] [FloorRing K]

/-- A gradient without its values. -/
def Spec.bare (g : GGrad K) : GGrad K := { g with prop := { g.prop with data := ⟨[], []⟩ } }

/-- The same cube, or the same gradient at place `k`. -/
def Spec.SameAt (s s' : Shallot K) : Cube ⊕ ℕ → Prop
  | .inl c => s'.prop c = s.prop c
  | .inr k => (s'.gradients.getD [])[k]? = (s.gradients.getD [])[k]?

/-- The same grid apart from the cubes and the values of the gradients. -/
structure Spec.SameRest (s s' : Shallot K) : Prop where
  params : s'.params = s.params
  numFxfy : s'.numFxfy = s.numFxfy
  diagnostics : s'.diagnostics = s.diagnostics
  circularRadius : s'.circularRadius = s.circularRadius
  shear : s'.shear = s.shear
  eclipseDuration : s'.eclipseDuration = s.eclipseDuration
  velocity : s'.velocity = s.velocity
  limb : s'.limb = s.limb
  gradients : s'.gradients.map (List.map bare) = s.gradients.map (List.map bare)
  combined : s'.combinedMask = s.combinedMask

theorem Spec.SameRest.refl (s : Shallot K) : SameRest s s := ⟨rfl, rfl, rfl, rfl, rfl, rfl, rfl, rfl, rfl, rfl⟩

theorem Spec.SameRest.trans {a b c : Shallot K} (h : SameRest a b) (k : SameRest b c) : SameRest a c :=
  ⟨k.1.trans h.1, k.2.trans h.2, k.3.trans h.3, k.4.trans h.4, k.5.trans h.5, k.6.trans h.6, k.7.trans h.7,
    k.8.trans h.8, k.9.trans h.9, k.10.trans h.10⟩

theorem Spec.SameRest.symm {a b : Shallot K} (h : SameRest a b) : SameRest b a :=
  ⟨h.1.symm, h.2.symm, h.3.symm, h.4.symm, h.5.symm, h.6.symm, h.7.symm, h.8.symm, h.9.symm, h.10.symm⟩

theorem Spec.SameAt.trans {a b c : Shallot K} {x : Cube ⊕ ℕ} (h : SameAt a b x) (k : SameAt b c x) : SameAt a c x := by
  cases x <;> exact Eq.trans k h

theorem Spec.SameAt.symm {a b : Shallot K} {x : Cube ⊕ ℕ} (h : SameAt a b x) : SameAt b a x := by
  cases x <;> exact Eq.symm h

theorem Spec.SameAt.refl (a : Shallot K) (x : Cube ⊕ ℕ) : SameAt a a x := by cases x <;> rfl

theorem same_all {s s' : Shallot K} (h : SameRest s s') (k : ∀ a, SameAt s s' a) : s' = s := by
  have hg : s'.gradients = s.gradients := by
    have h9 := h.gradients
    cases h1 : s.gradients with
    | none =>
      rw [h1] at h9
      cases h2 : s'.gradients with
      | none => rfl
      | some l => rw [h2] at h9; cases h9
    | some l =>
      rw [h1] at h9
      cases h2 : s'.gradients with
      | none => rw [h2] at h9; cases h9
      | some l' =>
        congr 1
        refine List.ext_getElem? fun i => ?_
        have := k (.inr i)
        simpa [SameAt, h1, h2] using this
  have c1 := k (.inl .diskRadius)
  have c2 := k (.inl .inclination)
  have c3 := k (.inl .tilt)
  have c4 := k (.inl .fxMap)
  have c5 := k (.inl .fyMap)
  have c6 := k (.inl .diagnosticMap)
  have c7 := k (.inl .gradientFit)
  simp only [SameAt, Shallot.prop, Option.some.injEq] at c1 c2 c3 c4 c5 c6 c7
  obtain ⟨e1, e2, e3, e4, e5, e6, e7, e8, -, -⟩ := h
  cases s
  cases s'
  simp only at hg c1 c2 c3 c4 c5 c6 c7 e1 e2 e3 e4 e5 e6 e7 e8
  subst hg c1 c2 c3 c4 c5 c6 c7 e1 e2 e3 e4 e5 e6 e7 e8
  rfl

/-- A reading of the cubes and gradients of `C`: it can be repeated, writes nothing else, and where nothing remains to
be written it depends on nothing else. -/
structure Spec.Reader {α : Type} (x : Meth (Shallot K) α) (C : Cube ⊕ ℕ → Prop) : Prop where
  again : ∀ s, x (x s).2 = x s
  rest : ∀ s, SameRest s (x s).2
  keeps : ∀ s a, ¬ C a → SameAt s (x s).2 a
  blind : ∀ s s', SameRest s s' → (∀ a, C a → SameAt s s' a) → ∀ o, x s = (o, s) → x s' = (o, s')

theorem Spec.Reader.lift {α : Type} (e : Except Err α) (C : Cube ⊕ ℕ → Prop) :
    Reader (Meth.lift e : Meth (Shallot K) α) C := by
  have h : ∀ s : Shallot K, (Meth.lift e : Meth (Shallot K) α) s = (e, s) := fun s => rfl
  refine ⟨fun s => by rw [h, h], fun s => by rw [h]; exact .refl s, fun s a _ => by rw [h]; exact .refl s a,
    fun s s' _ _ o ho => ?_⟩
  rw [h] at ho ⊢
  obtain ⟨rfl, -⟩ := Prod.mk.inj ho
  rfl

theorem Spec.Reader.pure {α : Type} (a : α) (C : Cube ⊕ ℕ → Prop) : Reader (pure a : Meth (Shallot K) α) C :=
  Reader.lift (.ok a) C

theorem Spec.Reader.bind {α β : Type} {x : Meth (Shallot K) α} {f : α → Meth (Shallot K) β} {C D E : Cube ⊕ ℕ → Prop}
    (hx : Reader x C) (hf : ∀ a, Reader (f a) D) (hd : ∀ a, C a → ¬ D a) (hC : ∀ a, C a → E a) (hD : ∀ a, D a → E a) :
    Reader (x >>= f) E := by
  refine ⟨fun s => ?_, fun s => ?_, fun s a ha => ?_, fun s s' hr ha o ho => ?_⟩
  · rcases hs : x s with ⟨r | r, s1⟩
    · have h1 : x s1 = (.error r, s1) := by
        have := hx.again s
        rwa [hs] at this
      rw [bind_failed _ _ _ _ _ hs, bind_failed _ _ _ _ _ h1]
    · have h1 : x s1 = (.ok r, s1) := by
        have := hx.again s
        rwa [hs] at this
      rw [bind_ok _ _ _ _ _ hs]
      have h2 : x (f r s1).2 = (.ok r, (f r s1).2) :=
        hx.blind s1 _ ((hf r).rest s1) (fun a h => (hf r).keeps s1 a (hd a h)) _ h1
      rw [bind_ok _ _ _ _ _ h2, (hf r).again]
  · have h1 := hx.rest s
    rcases hs : x s with ⟨r | r, s1⟩
    · rw [hs] at h1
      rw [bind_failed _ _ _ _ _ hs]
      exact h1
    · rw [hs] at h1
      rw [bind_ok _ _ _ _ _ hs]
      exact h1.trans ((hf r).rest s1)
  · have h1 := hx.keeps s a fun h => ha (hC a h)
    rcases hs : x s with ⟨r | r, s1⟩
    · rw [hs] at h1
      rw [bind_failed _ _ _ _ _ hs]
      exact h1
    · rw [hs] at h1
      rw [bind_ok _ _ _ _ _ hs]
      exact h1.trans ((hf r).keeps s1 a fun h => ha (hD a h))
  · rcases hs : x s with ⟨r | r, s1⟩
    · rw [bind_failed _ _ _ _ _ hs] at ho
      obtain ⟨rfl, rfl⟩ := Prod.mk.inj ho
      rw [bind_failed _ _ _ _ _ (hx.blind s1 s' hr (fun a h => ha a (hC a h)) _ hs)]
    · rw [bind_ok _ _ _ _ _ hs] at ho
      have hk := hx.keeps s
      have hr1 := hx.rest s
      rw [hs] at hk hr1
      have hk2 := (hf r).keeps s1
      rw [ho] at hk2
      obtain rfl : s1 = s := same_all hr1 fun a => by
        by_cases h : C a
        · exact (hk2 a (hd a h)).symm
        · exact hk a h
      rw [bind_ok _ _ _ _ _ (hx.blind s1 s' hr (fun a h => ha a (hC a h)) _ hs)]
      exact (hf r).blind s1 s' hr (fun a h => ha a (hD a h)) _ ho

theorem Spec.Reader.get {β : Type} {f : Shallot K → Meth (Shallot K) β} {C : Cube ⊕ ℕ → Prop}
    (h : ∀ s s', SameRest s s' → f s' = f s) (hf : ∀ s, Reader (f s) C) : Reader (Meth.get >>= f) C := by
  refine ⟨fun s => ?_, fun s => ?_, fun s a ha => ?_, fun s s' hr ha o ho => ?_⟩
  · rw [Meth.get_bind, Meth.get_bind, h s _ ((hf s).rest s)]
    exact (hf s).again s
  · exact (hf s).rest s
  · exact (hf s).keeps s a ha
  · rw [Meth.get_bind] at ho ⊢
    rw [h s s' hr]
    exact (hf s).blind s s' hr ha o ho

/-- Reading a cube. -/
theorem getCube_reader (c : Cube) (v w : PyVal K) : Reader (K := K) (Shallot.getCube c v w) (· = .inl c) := by
  have other : ∀ (s : Shallot K) (p q : GProp K), s.prop c = some p → q.mask = p.mask → SameRest s (s.setProp q c) :=
    fun s p q hp hm => by
      have hc := combinedMask_setProp s c p q hp hm
      cases c <;> exact ⟨rfl, rfl, rfl, rfl, rfl, rfl, rfl, rfl, rfl, hc⟩
  refine ⟨getCube_again c v w, fun s => ?_, fun s a ha => ?_, fun s s' hr ha o ho => ?_⟩
  · cases hp : s.prop c with
    | none => rw [getCube_none c v w s hp]; exact .refl s
    | some p =>
      obtain ⟨f, oe, hf, h⟩ := getCube_forms c v w p.mask p.data.shape s.combinedMask
      rw [h s p hp rfl rfl rfl]
      exact other s p _ hp rfl
  · cases hp : s.prop c with
    | none => rw [getCube_none c v w s hp]; exact .refl s a
    | some p =>
      obtain ⟨f, oe, hf, h⟩ := getCube_forms c v w p.mask p.data.shape s.combinedMask
      rw [h s p hp rfl rfl rfl]
      cases a with
      | inl c' =>
        show (s.setProp _ c).prop c' = s.prop c'
        rw [setProp_prop, if_neg fun e => ha (by rw [e])]
      | inr k =>
        show ((s.setProp _ c).gradients.getD [])[k]? = _
        rw [setProp_gradients]
  · have hc : s'.prop c = s.prop c := ha _ rfl
    cases hp : s.prop c with
    | none =>
      rw [getCube_none c v w s hp] at ho
      obtain ⟨rfl, -⟩ := Prod.mk.inj ho
      exact getCube_none c v w s' (hc.trans hp)
    | some p =>
      obtain ⟨f, oe, hf, h⟩ := getCube_forms c v w p.mask p.data.shape s.combinedMask
      rw [h s p hp rfl rfl rfl] at ho
      obtain ⟨h1, h2⟩ := Prod.mk.inj ho
      have hq : { p with data := ⟨p.data.shape, f p.data.data⟩ } = p := by
        have := congrArg (fun t => t.prop c) h2
        simp only [setProp_prop, if_pos, hp, Option.some.injEq] at this
        exact this
      rw [h s' p (hc.trans hp) rfl rfl hr.combined, h1, hq, setProp_prop_self s' c p (hc.trans hp)]

/-! ## Gradients -/

theorem getData_again (w : PyVal K) (p : GProp K) : GProp.getData w (GProp.getData w p).2 = GProp.getData w p := by
  rcases getData_forms w p.mask p.data.shape with ⟨e, h⟩ | ⟨ms, h⟩
  · rw [h p rfl rfl, h p rfl rfl]
  · have once : ∀ xs : List (XF K), putWhere .nan ms (putWhere .nan ms xs) = putWhere .nan ms xs := fun xs => by
      have := putWhere_again XF.nan ms [] xs
      simpa [putWhere] using this
    rw [h p rfl rfl]
    have := h { p with data := ⟨p.data.shape, putWhere .nan ms p.data.data⟩ } rfl rfl
    rw [this]
    simp only [once]

theorem getData_only (w : PyVal K) (p : GProp K) : ∃ d, (GProp.getData w p).2 = { p with data := d } := by
  rcases getData_forms w p.mask p.data.shape with ⟨e, h⟩ | ⟨ms, h⟩
  · exact ⟨p.data, by rw [h p rfl rfl]⟩
  · exact ⟨_, by rw [h p rfl rfl]⟩

theorem onGradient_some {α : Type} (k : ℕ) (m : Meth (GGrad K) α) (s : Shallot K) (l : List (GGrad K)) (g : GGrad K)
    (hl : s.gradients = some l) (hg : l[k]? = some g) :
    Shallot.onGradient k m s = ((m g).1, { s with gradients := some (l.set k (m g).2) }) := by
  unfold Shallot.onGradient
  rw [hl]
  simp only [Option.getD_some, hg]

theorem onGradient_none {α : Type} (k : ℕ) (m : Meth (GGrad K) α) (s : Shallot K)
    (hg : (s.gradients.getD [])[k]? = none) : Shallot.onGradient k m s = (.error .indexError, s) := by
  unfold Shallot.onGradient
  rw [hg]

theorem there {s : Shallot K} {k : ℕ} {g : GGrad K} (h : (s.gradients.getD [])[k]? = some g) :
    ∃ l, s.gradients = some l ∧ l[k]? = some g := by
  cases hl : s.gradients with
  | none => rw [hl] at h; simp at h
  | some l => rw [hl] at h; exact ⟨l, rfl, h⟩

/-- Reading a gradient. -/
theorem onGradient_reader_of {α : Type} (k : ℕ) (m : Meth (GGrad K) α) (twice : ∀ g, m (m g).2 = m g)
    (only : ∀ g, bare (m g).2 = bare g ∧ (m g).2.prop.mask = g.prop.mask) :
    Reader (K := K) (Shallot.onGradient k m) (· = .inr k) := by
  have setSelf : ∀ (l : List (GGrad K)) (g : GGrad K), l[k]? = some g → l.set k g = l := by
    intro l g h
    refine List.ext_getElem? fun i => ?_
    by_cases e : k = i
    · subst e
      rw [List.getElem?_set_self (List.getElem?_eq_some_iff.1 h).1, h]
    · rw [List.getElem?_set_ne e]
  refine ⟨fun s => ?_, fun s => ?_, fun s a ha => ?_, fun s s' hr ha o ho => ?_⟩
  · cases hg : (s.gradients.getD [])[k]? with
    | none => rw [onGradient_none k _ s hg, onGradient_none k _ s hg]
    | some g =>
      obtain ⟨l, hl, hlk⟩ := there hg
      rw [onGradient_some k _ s l g hl hlk]
      have hlt := (List.getElem?_eq_some_iff.1 hlk).1
      have := onGradient_some k m
        { s with gradients := some (l.set k (m g).2) } _ _ rfl
        (List.getElem?_set_self hlt)
      rw [this, twice, List.set_set]
  · cases hg : (s.gradients.getD [])[k]? with
    | none => rw [onGradient_none k _ s hg]; exact .refl s
    | some g =>
      obtain ⟨l, hl, hlk⟩ := there hg
      rw [onGradient_some k _ s l g hl hlk]
      have same : ∀ {β : Type} (F : GGrad K → β), F (m g).2 = F g →
          (l.set k (m g).2).map F = l.map F := by
        intro β F hF
        rw [List.map_set, hF, ← List.map_set, setSelf l g hlk]
      refine ⟨rfl, rfl, rfl, rfl, rfl, rfl, rfl, rfl, ?_, ?_⟩
      · rw [hl]
        simp only [Option.map_some, same bare (only g).1]
      · have h : Shallot.allMasks { s with gradients := some (l.set k (m g).2) } = s.allMasks := by
          unfold Shallot.allMasks
          rw [hl]
          simp only [same (fun g => g.prop.mask) (only g).2]
        unfold Shallot.combinedMask
        rw [h]
  · cases hg : (s.gradients.getD [])[k]? with
    | none => rw [onGradient_none k _ s hg]; exact .refl s a
    | some g =>
      obtain ⟨l, hl, hlk⟩ := there hg
      rw [onGradient_some k _ s l g hl hlk]
      cases a with
      | inl c => cases c <;> rfl
      | inr j =>
        show (l.set k _)[j]? = _
        rw [hl, List.getElem?_set_ne fun e => ha (by rw [e])]
        rfl
  · have hc : (s'.gradients.getD [])[k]? = (s.gradients.getD [])[k]? := ha _ rfl
    cases hg : (s.gradients.getD [])[k]? with
    | none =>
      rw [onGradient_none k _ s hg] at ho
      obtain ⟨rfl, -⟩ := Prod.mk.inj ho
      exact onGradient_none k _ s' (hc.trans hg)
    | some g =>
      obtain ⟨l, hl, hlk⟩ := there hg
      obtain ⟨l', hl', hlk'⟩ := there (hc.trans hg)
      rw [onGradient_some k _ s l g hl hlk] at ho
      obtain ⟨h1, h2⟩ := Prod.mk.inj ho
      have h3 := congrArg (fun t => (t.gradients.getD [])[k]?) h2
      simp only [Option.getD_some, hg, List.getElem?_set_self (List.getElem?_eq_some_iff.1 hlk).1,
        Option.some.injEq] at h3
      rw [onGradient_some k _ s' l' g hl' hlk', h1, h3, setSelf l' g hlk', ← hl']

theorem onGradient_reader (k : ℕ) (w : PyVal K) :
    Reader (K := K) (Shallot.onGradient k (Shallot.gradientValues.onGradData w)) (· = .inr k) := by
  refine onGradient_reader_of k _ (fun g => ?_) fun g => ?_
  · show Shallot.gradientValues.onGradData w _ = _
    unfold Shallot.gradientValues.onGradData
    simp only [getData_again]
  · obtain ⟨d, hd⟩ := getData_only w g.prop
    unfold Shallot.gradientValues.onGradData bare
    simp only [hd, and_self]

theorem bare_at {s s' : Shallot K} (h : SameRest s s') (k : ℕ) :
    ((s'.gradients.getD [])[k]?).map bare = ((s.gradients.getD [])[k]?).map bare := by
  have h9 := h.gradients
  cases h1 : s.gradients with
  | none =>
    cases h2 : s'.gradients with
    | none => rfl
    | some l => rw [h1, h2] at h9; cases h9
  | some l =>
    cases h2 : s'.gradients with
    | none => rw [h1, h2] at h9; cases h9
    | some l' =>
      rw [h1, h2] at h9
      simp only [Option.map_some, Option.some.injEq] at h9
      simp only [Option.getD_some, ← List.getElem?_map, h9]

theorem bare_cases {s s' : Shallot K} (h : SameRest s s') (k : ℕ) :
    ((s.gradients.getD [])[k]? = none ∧ (s'.gradients.getD [])[k]? = none) ∨
    ∃ g g', (s.gradients.getD [])[k]? = some g ∧ (s'.gradients.getD [])[k]? = some g' ∧ bare g' = bare g := by
  have := bare_at h k
  cases h1 : (s.gradients.getD [])[k]? with
  | none =>
    cases h2 : (s'.gradients.getD [])[k]? with
    | none => exact Or.inl ⟨rfl, rfl⟩
    | some g => rw [h1, h2] at this; cases this
  | some g =>
    cases h2 : (s'.gradients.getD [])[k]? with
    | none => rw [h1, h2] at this; cases this
    | some g' =>
      rw [h1, h2] at this
      exact Or.inr ⟨g, g', rfl, rfl, Option.some.inj this⟩

/-- No gradients on both grids, or equally many. -/
theorem gradients_cases {s s' : Shallot K} (h : SameRest s s') :
    (s.gradients = none ∧ s'.gradients = none) ∨
    ∃ l l', s.gradients = some l ∧ s'.gradients = some l' ∧ l'.length = l.length := by
  have h9 := h.gradients
  cases h1 : s.gradients with
  | none =>
    cases h2 : s'.gradients with
    | none => exact Or.inl ⟨rfl, rfl⟩
    | some l => rw [h1, h2] at h9; cases h9
  | some l =>
    cases h2 : s'.gradients with
    | none => rw [h1, h2] at h9; cases h9
    | some l' =>
      rw [h1, h2] at h9
      have := congrArg List.length (Option.some.inj h9)
      rw [List.length_map, List.length_map] at this
      exact Or.inr ⟨l, l', rfl, rfl, this⟩

theorem gradientValues_reader (masked : PyVal K) (y x r : ℤ) (n k : ℕ) :
    Reader (K := K) (Shallot.gradientValues masked y x r n k) (fun a => ∃ j, k ≤ j ∧ a = .inr j) := by
  induction n generalizing k with
  | zero => exact .pure _ _
  | succ n ih =>
    unfold Shallot.gradientValues
    refine Reader.get (fun s s' h => ?_) fun s => ?_
    · rcases bare_cases h k with ⟨h1, h2⟩ | ⟨g, g', h1, h2, hb⟩
      · simp only [h1, h2]
      · have : g'.position = g.position := congrArg (fun g => g.position) hb
        simp only [h1, h2, this]
    · refine (onGradient_reader k masked).bind (D := fun a => ∃ j, k + 1 ≤ j ∧ a = .inr j) (fun d => ?_) ?_ ?_ ?_
      · refine (Reader.lift _ (fun _ => False)).bind (D := fun a => ∃ j, k + 1 ≤ j ∧ a = .inr j) (fun v => ?_)
          (fun _ h => h.elim) (fun _ h => h.elim) (fun _ h => h)
        exact (ih (k + 1)).bind (D := fun _ => False) (fun _ => .pure _ _) (fun _ _ h => h) (fun _ h => h)
          (fun _ h => h.elim)
      · rintro a rfl ⟨j, hj, e⟩
        rw [Sum.inr.injEq] at e
        omega
      · rintro a rfl
        exact ⟨k, le_rfl, rfl⟩
      · rintro a ⟨j, hj, rfl⟩
        exact ⟨j, by omega, rfl⟩

/-- Any gradient. -/
def Spec.AnyGradient (a : Cube ⊕ ℕ) : Prop := ∃ k, a = .inr k

theorem Spec.Reader.mono {α : Type} {x : Meth (Shallot K) α} {C D : Cube ⊕ ℕ → Prop} (h : Reader x C)
    (hCD : ∀ a, C a → D a) : Reader x D :=
  ⟨h.again, h.rest, fun s a ha => h.keeps s a fun k => ha (hCD a k), fun s s' hr ha o ho =>
    h.blind s s' hr (fun a k => ha a (hCD a k)) o ho⟩

/-- A reading followed by a computation. -/
theorem Spec.Reader.then {α β : Type} {x : Meth (Shallot K) α} {f : α → Meth (Shallot K) β} {C : Cube ⊕ ℕ → Prop}
    (hx : Reader x C) (hf : ∀ a, Reader (f a) fun _ => False) : Reader (x >>= f) C :=
  hx.bind hf (fun _ _ h => h) (fun _ h => h) (fun _ h => h.elim)

/-- A computation followed by a reading. -/
theorem Spec.Reader.after {α β : Type} (e : Except Err α) {f : α → Meth (Shallot K) β} {C : Cube ⊕ ℕ → Prop}
    (hf : ∀ a, Reader (f a) C) : Reader (Meth.lift e >>= f) C :=
  (Reader.lift e fun _ => False).bind hf (fun _ h => h.elim) (fun _ h => h.elim) (fun _ h => h)

theorem gradientsAt_reader (masked : PyVal K) (y x r : ℤ) :
    Reader (K := K) (Shallot.gradientsAt masked y x r) AnyGradient := by
  unfold Shallot.gradientsAt
  refine Reader.get (fun s s' h => ?_) fun s => ?_
  · rcases gradients_cases h with ⟨h1, h2⟩ | ⟨l, l', h1, h2, hl⟩
    · simp only [h1, h2]
    · simp only [h1, h2, hl]
  · cases s.gradients with
    | none => exact .pure _ _
    | some l =>
      exact ((gradientValues_reader masked y x r l.length 0).mono fun a ⟨j, _, h⟩ => ⟨j, h⟩).then fun _ => .pure _ _

theorem lookup_reader (c : Cube) (masked : PyVal K) (y x r : ℤ) :
    Reader (K := K) (Shallot.lookup c masked y x r) (· = .inl c) := by
  unfold Shallot.lookup
  exact (getCube_reader c _ _).then fun _ => .lift _ _

/-- A reading of one cube, followed by readings of others. -/
theorem Spec.Reader.cube {α β : Type} {x : Meth (Shallot K) α} {f : α → Meth (Shallot K) β} {c : Cube}
    {D : Cube ⊕ ℕ → Prop} (hx : Reader x (· = .inl c)) (hf : ∀ a, Reader (f a) D) (hc : ¬ D (.inl c)) :
    Reader (x >>= f) (fun a => a = .inl c ∨ D a) :=
  hx.bind hf (fun a h => by rw [h]; exact hc) (fun _ h => Or.inl h) (fun _ h => Or.inr h)

theorem gridPoint_reader (y x r masked : PyVal K) : ∃ C, Reader (K := K) (Shallot.gridPoint y x r masked) C := by
  refine ⟨fun a => a = .inl .diskRadius ∨ a = .inl .inclination ∨ a = .inl .tilt ∨ a = .inl .fxMap ∨
    a = .inl .fyMap ∨ a = .inl .diagnosticMap ∨ AnyGradient a, ?_⟩
  unfold Shallot.gridPoint
  refine Reader.get (fun s s' h => by simp only [h.params]) fun s => ?_
  refine .after _ fun y => .after _ fun x => .after _ fun r => ?_
  refine (lookup_reader _ _ _ _ _).cube (fun _ => ?_) (by simp [AnyGradient])
  refine (lookup_reader _ _ _ _ _).cube (fun _ => ?_) (by simp [AnyGradient])
  refine (lookup_reader _ _ _ _ _).cube (fun _ => ?_) (by simp [AnyGradient])
  refine .after _ fun _ => .after _ fun _ => .after _ fun _ => ?_
  refine (lookup_reader _ _ _ _ _).cube (fun _ => ?_) (by simp [AnyGradient])
  refine (lookup_reader _ _ _ _ _).cube (fun _ => ?_) (by simp [AnyGradient])
  refine (lookup_reader _ _ _ _ _).cube (fun _ => ?_) (by simp [AnyGradient])
  exact (gradientsAt_reader _ _ _ _).then fun _ => .pure _ _

theorem closestPoint_reader (radius inclination tilt impact masked : PyVal K) :
    ∃ C, Reader (K := K) (Shallot.closestPoint radius inclination tilt impact masked) C := by
  refine ⟨fun a => a = .inl .diskRadius ∨ a = .inl .inclination ∨ a = .inl .tilt ∨ False, ?_⟩
  unfold Shallot.closestPoint
  refine .after _ fun _ => .after _ fun _ => .after _ fun _ => .after _ fun _ => .after _ fun _ => ?_
  refine (getCube_reader _ _ _).cube (fun _ => ?_) (by simp)
  refine (getCube_reader _ _ _).cube (fun _ => ?_) (by simp)
  refine (getCube_reader _ _ _).cube (fun _ => ?_) (by simp)
  exact Reader.get (fun s s' h => by simp only [h.params]) fun s => .lift _ _

theorem gradientLoop_reader (m : Mask) (w : PyVal K) (n k : ℕ) :
    Reader (K := K) (Shallot.gradientLoop m w n k) (fun a => ∃ j, k ≤ j ∧ a = .inr j) := by
  induction n generalizing k with
  | zero => exact .pure _ _
  | succ n ih =>
    unfold Shallot.gradientLoop
    refine Reader.get (fun s s' h => ?_) fun s => ?_
    · rcases bare_cases h k with ⟨h1, h2⟩ | ⟨g, g', h1, h2, hb⟩
      · simp only [h1, h2]
      · have p1 : g'.position = g.position := congrArg (fun g => g.position) hb
        have p2 : g'.error = g.error := congrArg (fun g => g.error) hb
        have p3 : g'.scaled = g.scaled := by
          have hs : ∀ g : GGrad K, (bare g).scaled = g.scaled := fun g => rfl
          rw [← hs g', hb, hs]
        simp only [h1, h2, p1, p2, p3]
    · cases (s.gradients.getD [])[k]? with
      | none => exact .pure _ _
      | some g =>
        refine .after _ fun _ => ?_
        refine (onGradient_reader k w).bind (D := fun a => ∃ j, k + 1 ≤ j ∧ a = .inr j) (fun d => ?_) ?_ ?_ ?_
        · exact (ih (k + 1)).then fun _ => .pure _ _
        · rintro a rfl ⟨j, hj, e⟩
          rw [Sum.inr.injEq] at e
          omega
        · rintro a rfl
          exact ⟨k, le_rfl, rfl⟩
        · rintro a ⟨j, hj, rfl⟩
          exact ⟨j, by omega, rfl⟩

theorem getGradients_reader (v w : PyVal K) : Reader (K := K) (Shallot.getGradients v w) AnyGradient := by
  unfold Shallot.getGradients
  refine Reader.get (fun s s' h => ?_) fun s => ?_
  · have hm : ∀ b, s'.maskOrNot b = s.maskOrNot b := fun b => by
      unfold Shallot.maskOrNot
      rw [h.combined, h.params]
    rcases gradients_cases h with ⟨h1, h2⟩ | ⟨l, l', h1, h2, hl⟩
    · simp only [h1, h2]
    · simp only [h1, h2, hl, hm]
  · cases s.gradients with
    | none => exact .lift (.error .typeError) _
    | some l =>
      exact .after _ fun _ => .after _ fun _ => (gradientLoop_reader _ w l.length 0).mono fun a ⟨j, _, h⟩ => ⟨j, h⟩

/-- **C142** The same holds for `get_gradients`, `get_grid_point_data` and `determine_closest_grid_point`: the second
call returns or raises what the first one did, and leaves the grid as it is. -/
theorem C142_reads_all (a b c d e : PyVal K) (s : Shallot K) :
    Shallot.getGradients a b (Shallot.getGradients a b s).2 = Shallot.getGradients a b s ∧
    Shallot.gridPoint a b c d (Shallot.gridPoint a b c d s).2 = Shallot.gridPoint a b c d s ∧
    Shallot.closestPoint a b c d e (Shallot.closestPoint a b c d e s).2 = Shallot.closestPoint a b c d e s :=
  ⟨(getGradients_reader a b).again s, (gridPoint_reader a b c d).elim fun _ h => h.again s,
    (closestPoint_reader a b c d e).elim fun _ h => h.again s⟩

end
end Beyonce
