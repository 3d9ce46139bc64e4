import Verif.Props.GridProperty
import Mathlib.Data.Rat.Floor

/-!
# Properties C34 – C37: `GridGradient`
-/

set_option linter.unusedSectionVars false

namespace Beyonce
open Spec
variable {K : Type} [Field K] [LinearOrder K]

/-- An argument with a default: left out, or a number. -/
def Spec.GivenOr (default : K) (v : PyVal K) (x : XF K) : Prop :=
  (v = .none ∧ x = .fin default) ∨ IsNumber false v x

/-- The elements that a threshold excludes: those below it, and NaN. -/
def Spec.MasksBelow (threshold : K) (data : List (XF K)) (mask : List Bool) : Prop :=
  mask.length = data.length ∧ ∀ (i : ℕ) (x : XF K), data[i]? = some x →
    (mask[i]? = some true ↔ x = .nan ∨ Less x (.fin threshold))

/-- Only the NaN elements are excluded. -/
def Spec.MasksNan (data : List (XF K)) (mask : List Bool) : Prop :=
  mask.length = data.length ∧ ∀ (i : ℕ) (x : XF K), data[i]? = some x →
    (mask[i]? = some true ↔ x = .nan)

variable [IsStrictOrderedRing K]

theorem number_iff (v w lo hi : PyVal K) (l u : XF K) (hl : IsNumber false lo l)
    (hu : IsNumber false hi u) (hlu : ¬ Less u l) :
    number v (.bool false) lo hi = .ok w ↔
      w = v ∧ IsNumber false v v.num ∧ ¬ Less v.num l ∧ ¬ Less u v.num := by
  rw [show number v (.bool false) lo hi = number v (.bool false) lo hi (.bool false) from rfl,
    C01_number_ok_iff]
  constructor
  · rintro ⟨h, x, l', u', h1, h2, h3, -, h5⟩
    obtain rfl := isNumber_unique h2 hl
    obtain rfl := isNumber_unique h3 hu
    have := isNumber_num h1
    subst this
    simp only [Violates, Bool.false_eq_true, if_false, not_or] at h5
    exact ⟨h, h1, h5.1, h5.2⟩
  · rintro ⟨h, h1, h2, h3⟩
    refine ⟨h, _, l, u, h1, hl, hu, hlu, ?_⟩
    simp only [Violates, Bool.false_eq_true, if_false, not_or]
    exact ⟨h2, h3⟩

theorem number_iff' (v lo hi : PyVal K) (l u : XF K) (hl : IsNumber false lo l)
    (hu : IsNumber false hi u) (hlu : ¬ Less u l) :
    (number v (.bool false) lo hi = .ok v ∧ IsNumber false v v.num ∧ ¬ Less v.num l ∧
      ¬ Less u v.num) ∨
    (∃ e, number v (.bool false) lo hi = .error e ∧
      ¬ (IsNumber false v v.num ∧ ¬ Less v.num l ∧ ¬ Less u v.num)) := by
  cases h : number v (.bool false) lo hi with
  | ok w =>
    obtain ⟨rfl, h'⟩ := (number_iff v w lo hi l u hl hu hlu).1 h
    exact Or.inl ⟨rfl, h'⟩
  | error e =>
    refine Or.inr ⟨e, rfl, fun h' => ?_⟩
    rw [(number_iff v v lo hi l u hl hu hlu).2 ⟨rfl, h'⟩] at h
    cases h

/-- Accepted as measured gradient, orbital scale or measured error. -/
def Spec.NotNegative (v : PyVal K) : Prop := ∃ x, IsNumber false v x ∧ ¬ Less x (.fin 0)

/-- Accepted as transmission change. -/
def Spec.Fraction (v : PyVal K) : Prop :=
  ∃ x, IsNumber false v x ∧ ¬ Less x (.fin 0) ∧ ¬ Less (.fin 1) x

theorem int_isNumber (n : ℤ) : IsNumber false (.int n : PyVal K) (.fin n) := Or.inl ⟨n, .int n, rfl⟩

theorem notNeg_int (v : PyVal K) :
    (number v (.bool false) (.int 0) = .ok v ∧ NotNegative v) ∨
    (∃ e, number v (.bool false) (.int 0) = .error e ∧ ¬ NotNegative v) := by
  have e0 : (.fin ((0 : ℤ) : K) : XF K) = .fin 0 := by simp
  rcases number_iff' v (.int 0) (.float .pinf) _ _ (int_isNumber 0) (Or.inr ⟨rfl, .float _⟩)
    (by rw [less_iff]; simp) with ⟨h, h1, h2, -⟩ | ⟨e, h, h'⟩
  · exact Or.inl ⟨h, v.num, h1, by rwa [e0] at h2⟩
  · refine Or.inr ⟨e, h, ?_⟩
    rintro ⟨x, h1, h2⟩
    have := isNumber_num h1
    subst this
    exact h' ⟨h1, by rwa [e0], by rw [less_iff]; simp⟩

theorem notNeg_float (v : PyVal K) :
    (number v (.bool false) (.float (.fin 0)) = .ok v ∧ NotNegative v) ∨
    (∃ e, number v (.bool false) (.float (.fin 0)) = .error e ∧ ¬ NotNegative v) := by
  rcases number_iff' v (.float (.fin 0)) (.float .pinf) _ _ (Or.inr ⟨rfl, .float _⟩)
    (Or.inr ⟨rfl, .float _⟩) (by rw [less_iff]; simp) with ⟨h, h1, h2, -⟩ | ⟨e, h, h'⟩
  · exact Or.inl ⟨h, v.num, h1, h2⟩
  · refine Or.inr ⟨e, h, ?_⟩
    rintro ⟨x, h1, h2⟩
    have := isNumber_num h1
    subst this
    exact h' ⟨h1, h2, by rw [less_iff]; simp⟩

theorem fraction_int (v : PyVal K) :
    (number v (.bool false) (.int 0) (.int 1) = .ok v ∧ Fraction v) ∨
    (∃ e, number v (.bool false) (.int 0) (.int 1) = .error e ∧ ¬ Fraction v) := by
  have e0 : (.fin ((0 : ℤ) : K) : XF K) = .fin 0 := by simp
  have e1 : (.fin ((1 : ℤ) : K) : XF K) = .fin 1 := by simp
  rcases number_iff' v (.int 0) (.int 1) _ _ (int_isNumber 0) (int_isNumber 1)
    (by rw [less_iff]; simp) with ⟨h, h1, h2, h3⟩ | ⟨e, h, h'⟩
  · exact Or.inl ⟨h, v.num, h1, by rwa [e0] at h2, by rwa [e1] at h3⟩
  · refine Or.inr ⟨e, h, ?_⟩
    rintro ⟨x, h1, h2, h3⟩
    have := isNumber_num h1
    subst this
    exact h' ⟨h1, by rwa [e0], by rwa [e1]⟩

/-- The value an optional argument stands for. -/
def orOne (v : PyVal K) : PyVal K := if v = .none then .int 1 else v

theorem givenOr_iff (v : PyVal K) (x : XF K) : GivenOr 1 v x ↔ IsNumber false (orOne v) x := by
  unfold GivenOr orOne
  by_cases h : v = .none
  · subst h
    simp only [true_and, if_true]
    have h1 := int_isNumber (K := K) 1
    have h2 : ¬ IsNumber false (.none : PyVal K) x := by
      rintro (⟨n, h, -⟩ | ⟨-, h⟩) <;> cases h
    have e1 : (.fin ((1 : ℤ) : K) : XF K) = .fin 1 := by simp
    rw [e1] at h1
    constructor
    · rintro (rfl | h)
      · exact h1
      · exact absurd h h2
    · intro h
      exact Or.inl (isNumber_unique h h1)
  · simp [h]

/-- The gradient with new measured values. -/
def stored (g : GGrad K) (vm vo vt ve : PyVal K) : GGrad K :=
  { g with
    measured := some vm, orbital := some vo, transmission := some (orOne vt),
    error := some (orOne ve) }

theorem scaled_stored (g : GGrad K) (vm vo vt ve : PyVal K) :
    (stored g vm vo vt ve).scaled = match oneOver (orOne vt) with
      | .error e => .error e
      | .ok q => if XF.lt (.fin 1) (vm.num.mul (vo.num.mul q)) = true then .error .valueError
        else .ok (some (vm.num.mul (vo.num.mul q))) := by
  unfold GGrad.scaled
  simp only [stored, needNumber, bind, Except.bind]
  cases oneOver (orOne vt) <;> rfl

/-- Everything `determine_mask` can do. -/
theorem determineMask_cases (vm vo vt ve : PyVal K) (g : GGrad K) :
    (¬ NotNegative vm ∧ ∃ e, GGrad.determineMask vm vo vt ve g = (.error e, g)) ∨
    (NotNegative vm ∧ ¬ NotNegative vo ∧
      ∃ e, GGrad.determineMask vm vo vt ve g = (.error e, { g with measured := some vm })) ∨
    (NotNegative vm ∧ NotNegative vo ∧ ¬ Fraction (orOne vt) ∧
      ∃ e, GGrad.determineMask vm vo vt ve g =
        (.error e, { g with measured := some vm, orbital := some vo })) ∨
    (NotNegative vm ∧ NotNegative vo ∧ Fraction (orOne vt) ∧ ¬ NotNegative (orOne ve) ∧
      ∃ e, GGrad.determineMask vm vo vt ve g =
        (.error e, { g with measured := some vm, orbital := some vo, transmission := some (orOne vt) })) ∨
    (NotNegative vm ∧ NotNegative vo ∧ Fraction (orOne vt) ∧ NotNegative (orOne ve) ∧
      ((∃ e, oneOver (orOne vt) = .error e ∧ GGrad.determineMask vm vo vt ve g =
        (.error e, stored g vm vo vt ve)) ∨
      ∃ q, oneOver (orOne vt) = .ok q ∧
        ((XF.lt (.fin 1) (vm.num.mul (vo.num.mul q)) = true ∧
          GGrad.determineMask vm vo vt ve g =
            (.error .valueError, stored g vm vo vt ve)) ∨
        (XF.lt (.fin 1) (vm.num.mul (vo.num.mul q)) = false ∧
          GGrad.determineMask vm vo vt ve g =
            (.ok (), { stored g vm vo vt ve with
              prop := { g.prop with
                mask := some ⟨g.prop.data.shape, g.prop.data.data.map
                  (GGrad.maskAt (vm.num.mul (vo.num.mul q)))⟩ } }))))) := by
  unfold GGrad.determineMask
  rcases notNeg_int vm with ⟨hm, hm'⟩ | ⟨e, hm, hm'⟩
  swap
  · left; rw [hm]; exact ⟨hm', e, rfl⟩
  right
  simp only [hm', true_and, hm, Meth.lift_ok_bind, Meth.modify_bind]
  rcases notNeg_int vo with ⟨ho, ho'⟩ | ⟨e, ho, ho'⟩
  swap
  · left; rw [ho]; exact ⟨ho', e, rfl⟩
  right
  simp only [ho', true_and, ho, Meth.lift_ok_bind, Meth.modify_bind]
  rw [show (if vt = .none then PyVal.int 1 else vt) = orOne vt from rfl]
  rcases fraction_int (orOne vt) with ⟨ht, ht'⟩ | ⟨e, ht, ht'⟩
  swap
  · left; rw [ht]; exact ⟨ht', e, rfl⟩
  right
  simp only [ht', true_and, ht, Meth.lift_ok_bind, Meth.modify_bind]
  rw [show (if ve = .none then PyVal.int 1 else ve) = orOne ve from rfl]
  rcases notNeg_float (orOne ve) with ⟨he, he'⟩ | ⟨e, he, he'⟩
  swap
  · left; rw [he]; exact ⟨he', e, rfl⟩
  right
  simp only [he', true_and, he, Meth.lift_ok_bind, Meth.modify_bind, Meth.get_bind]
  have hs := scaled_stored g vm vo vt ve
  rw [show (⟨g.prop, g.position, some vm, some (orOne ve), some vo, some (orOne vt)⟩ : GGrad K) =
    stored g vm vo vt ve from rfl, hs]
  cases hq : oneOver (orOne vt) with
  | error e => left; exact ⟨e, rfl, rfl⟩
  | ok q =>
    right
    refine ⟨q, rfl, ?_⟩
    simp only
    cases hl : XF.lt (.fin 1) (vm.num.mul (vo.num.mul q)) with
    | true =>
      left
      exact ⟨rfl, rfl⟩
    | false =>
      right
      exact ⟨rfl, rfl⟩

/-- Finite arguments with a positive transmission change. -/
def Spec.Finite3 (a b c : XF K) (m o t : K) : Prop :=
  a = .fin m ∧ b = .fin o ∧ c = .fin t ∧ 0 < t

theorem oneOver_pos (v : PyVal K) (t : K) (h : v.num = .fin t) (ht : 0 < t) :
    oneOver v = .ok (.fin (1 / t)) := by
  have hd : (XF.fin (1 : K)).div (.fin t) = .fin (1 / t) := by simp [XF.div, ht.ne']
  have he : XF.eqb (.fin t) (.fin (0 : K)) = false := by simp [ht.ne']
  unfold oneOver
  cases v <;> simp only [h, he, hd] <;> rfl

theorem product_eq (m o t : K) :
    (XF.fin m).mul ((XF.fin o).mul (.fin (1 / t))) = .fin (m * o / t) := by
  simp only [XF.mul, XF.fin.injEq]
  rw [mul_one_div, mul_div_assoc]

theorem oneOver_ok (v : PyVal K) (q : XF K) (h : oneOver v = .ok q) : q = (XF.fin 1).div v.num := by
  have key : ∀ x : XF K, (if XF.eqb x (.fin 0) = true then (Except.error .zeroDivisionError : Except Err (XF K))
      else .ok ((XF.fin 1).div x)) = .ok q → q = (XF.fin 1).div x := by
    intro x hx
    split_ifs at hx with h1
    cases hx; rfl
  unfold oneOver at h
  cases v with
  | bool b => exact key _ h
  | int n => exact key _ h
  | float x => exact key _ h
  | _ => cases h; rfl

theorem threshold_cases {a b c : XF K} (ha : ¬ Less a (.fin 0)) (hb : ¬ Less b (.fin 0))
    (hc : ¬ Less c (.fin 0)) (hc' : ¬ Less (.fin 1) c)
    (h : XF.lt (.fin 1) (a.mul (b.mul ((XF.fin 1).div c))) = false) :
    (∃ m o t, Finite3 a b c m o t ∧ a.mul (b.mul ((XF.fin 1).div c)) = .fin (m * o / t)) ∨
    ((¬ ∃ m o t, Finite3 a b c m o t) ∧ a.mul (b.mul ((XF.fin 1).div c)) = .nan) := by
  rw [less_iff, Bool.not_eq_true] at ha hb hc hc'
  have hn : ∀ x : XF K, XF.mul .nan x = .nan := fun x => by cases x <;> rfl
  have hn' : ∀ x : XF K, XF.mul x .nan = .nan := fun x => by cases x <;> rfl
  cases c with
  | nan =>
    right
    refine ⟨(by rintro ⟨m, o, t, -, -, h, -⟩; cases h), ?_⟩
    simp only [XF.div, hn']
  | ninf => simp [XF.lt] at hc
  | pinf => simp [XF.lt] at hc'
  | fin t =>
    have ht : 0 ≤ t := by simpa [XF.lt] using hc
    rcases ht.eq_or_lt with rfl | ht
    · right
      refine ⟨by rintro ⟨m, o, t, -, -, h, h'⟩; cases h; exact lt_irrefl _ h', ?_⟩
      have hq : (XF.fin (1 : K)).div (.fin 0) = .pinf := by simp [XF.div, XF.infSign]
      rw [hq] at h ⊢
      cases b with
      | nan => rw [hn, hn']
      | ninf => simp [XF.lt] at hb
      | pinf =>
        simp only [XF.mul] at h ⊢
        cases a with
        | nan => rfl
        | ninf => simp [XF.lt] at ha
        | pinf => simp [XF.lt] at h
        | fin m =>
          have hm : 0 ≤ m := by simpa [XF.lt] using ha
          rcases hm.eq_or_lt with rfl | hm
          · simp [XF.infSign]
          · simp [XF.infSign, hm] at h
      | fin o =>
        have ho : 0 ≤ o := by simpa [XF.lt] using hb
        rcases ho.eq_or_lt with rfl | ho
        · have : XF.mul (.fin (0 : K)) .pinf = .nan := by simp [XF.mul, XF.infSign]
          rw [this, hn']
        · have : XF.mul (.fin o) .pinf = .pinf := by simp [XF.mul, XF.infSign, ho]
          rw [this] at h ⊢
          cases a with
          | nan => rfl
          | ninf => simp [XF.lt] at ha
          | pinf => simp [XF.mul, XF.lt] at h
          | fin m =>
            have hm : 0 ≤ m := by simpa [XF.lt] using ha
            rcases hm.eq_or_lt with rfl | hm
            · simp [XF.mul, XF.infSign]
            · simp [XF.mul, XF.infSign, hm] at h
    · have hq : (XF.fin (1 : K)).div (.fin t) = .fin (1 / t) := by simp [XF.div, ht.ne']
      rw [hq] at h ⊢
      have hp : 0 < 1 / t := by positivity
      cases b with
      | nan =>
        right
        exact ⟨(by rintro ⟨m, o, t, -, h, -⟩; cases h), by rw [hn, hn']⟩
      | ninf => simp [XF.lt] at hb
      | pinf =>
        right
        refine ⟨(by rintro ⟨m, o, t, -, h, -⟩; cases h), ?_⟩
        have : XF.mul .pinf (.fin (1 / t)) = .pinf := by
          simp only [XF.mul, XF.infSign]; rw [if_pos hp]
        rw [this] at h ⊢
        cases a with
        | nan => rfl
        | ninf => simp [XF.lt] at ha
        | pinf => simp [XF.mul, XF.lt] at h
        | fin m =>
          have hm : 0 ≤ m := by simpa [XF.lt] using ha
          rcases hm.eq_or_lt with rfl | hm
          · simp [XF.mul, XF.infSign]
          · simp [XF.mul, XF.infSign, hm] at h
      | fin o =>
        have ho : 0 ≤ o := by simpa [XF.lt] using hb
        have e : XF.mul (.fin o) (.fin (1 / t)) = .fin (o * (1 / t)) := rfl
        cases a with
        | nan =>
          right
          exact ⟨(by rintro ⟨m, o, t, h, -⟩; cases h), by rw [hn]⟩
        | ninf => simp [XF.lt] at ha
        | pinf =>
          right
          refine ⟨(by rintro ⟨m, o, t, h, -⟩; cases h), ?_⟩
          rw [e] at h ⊢
          have h0 : 0 ≤ o * (1 / t) := by positivity
          rcases h0.eq_or_lt with h0 | h0
          · rw [← h0]; simp [XF.mul, XF.infSign]
          · have h1 : XF.mul .pinf (.fin (o * (1 / t))) = .pinf := by
              simp only [XF.mul, XF.infSign]; rw [if_pos h0]
            rw [h1] at h
            simp at h
        | fin m =>
          left
          exact ⟨m, o, t, ⟨rfl, rfl, rfl, ht⟩, product_eq m o t⟩

theorem maskAt_fin (s : K) (data : List (XF K)) :
    MasksBelow s data (data.map (GGrad.maskAt (.fin s))) := by
  refine ⟨by simp, fun i x hx => ?_⟩
  simp only [List.getElem?_map, hx, Option.map_some, Option.some.injEq, GGrad.maskAt,
    Bool.or_eq_true, less_iff, XF.isNan_iff]
  exact or_comm

theorem maskAt_nan (data : List (XF K)) : MasksNan data (data.map (GGrad.maskAt .nan)) := by
  refine ⟨by simp, fun i x hx => ?_⟩
  simp [List.getElem?_map, hx, GGrad.maskAt, XF.isNan_iff]

/-! ## C34 -/

/-- **C34** After a successful `determine_mask` the arguments were numbers `m`, `o`, `t`, `e`, none
of them below 0 and `t` not above 1, they are stored, data and position are unchanged, and the mask
has the shape of the data and marks: if the arguments are finite and `t > 0`, exactly the elements
that are NaN or below `m * o / t`, which is not above 1; otherwise (a NaN or infinite argument, or a
numpy zero for `t`) exactly the elements that are NaN. -/
theorem C34_determine_mask (vm vo vt ve : PyVal K) (g g' : GGrad K)
    (h : GGrad.determineMask vm vo vt ve g = (.ok (), g')) :
    ∃ m o t e : XF K, IsNumber false vm m ∧ IsNumber false vo o ∧ GivenOr 1 vt t ∧ GivenOr 1 ve e ∧
      ¬ Less m (.fin 0) ∧ ¬ Less o (.fin 0) ∧ ¬ Less t (.fin 0) ∧ ¬ Less (.fin 1) t ∧
      ¬ Less e (.fin 0) ∧
      g'.prop.data = g.prop.data ∧ g'.position = g.position ∧
      (∃ v, g'.measured = some v ∧ IsNumber false v m) ∧
      (∃ v, g'.orbital = some v ∧ IsNumber false v o) ∧
      (∃ v, g'.transmission = some v ∧ IsNumber false v t) ∧
      (∃ v, g'.error = some v ∧ IsNumber false v e) ∧
      ∃ mask, g'.prop.mask = some mask ∧ mask.shape = g.prop.data.shape ∧
        ((∃ m' o' t', Finite3 m o t m' o' t' ∧ m' * o' / t' ≤ 1 ∧
            MasksBelow (m' * o' / t') g.prop.data.data mask.data) ∨
          ((¬ ∃ m' o' t', Finite3 m o t m' o' t') ∧ MasksNan g.prop.data.data mask.data)) := by
  rcases determineMask_cases vm vo vt ve g with ⟨-, e, h'⟩ | ⟨-, -, e, h'⟩ | ⟨-, -, -, e, h'⟩ |
    ⟨-, -, -, -, e, h'⟩ | ⟨hm, ho, ht, he, ⟨e, -, h'⟩ | ⟨q, hq, ⟨-, h'⟩ | ⟨hl, h'⟩⟩⟩
  all_goals rw [h'] at h
  all_goals try (cases h; done)
  obtain ⟨m, hm1, hm2⟩ := hm
  obtain ⟨o, ho1, ho2⟩ := ho
  obtain ⟨t, ht1, ht2, ht3⟩ := ht
  obtain ⟨e, he1, he2⟩ := he
  have hg := (Prod.mk.inj h).2
  refine ⟨m, o, t, e, hm1, ho1, (givenOr_iff _ _).2 ht1, (givenOr_iff _ _).2 he1, hm2, ho2, ht2, ht3,
    he2, by rw [← hg], by rw [← hg]; rfl, ⟨vm, by rw [← hg]; rfl, hm1⟩, ⟨vo, by rw [← hg]; rfl, ho1⟩,
    ⟨orOne vt, by rw [← hg]; rfl, ht1⟩, ⟨orOne ve, by rw [← hg]; rfl, he1⟩, ?_⟩
  have eq := oneOver_ok _ _ hq
  rw [isNumber_num ht1] at eq
  rw [isNumber_num hm1, isNumber_num ho1, eq] at hl hg
  refine ⟨_, by rw [← hg], rfl, ?_⟩
  rcases threshold_cases hm2 ho2 ht2 ht3 hl with ⟨m', o', t', hf, hp⟩ | ⟨hf, hp⟩
  · left
    rw [hp] at hl ⊢
    exact ⟨m', o', t', hf, by simpa [XF.lt] using hl, maskAt_fin _ _⟩
  · right
    rw [hp]
    exact ⟨hf, maskAt_nan _⟩

/-- **C34** With finite arguments and a positive transmission change `determine_mask` succeeds
exactly when the arguments are in range and the scaled gradient is at most 1. -/
theorem C34_succeeds_iff (vm vo vt ve : PyVal K) (g : GGrad K) (m o t : K)
    (hm : IsNumber false vm (.fin m)) (ho : IsNumber false vo (.fin o)) (ht : GivenOr 1 vt (.fin t))
    (htp : 0 < t) :
    (∃ g', GGrad.determineMask vm vo vt ve g = (.ok (), g')) ↔
      0 ≤ m ∧ 0 ≤ o ∧ t ≤ 1 ∧ (∃ e, GivenOr 1 ve e ∧ ¬ Less e (.fin 0)) ∧ m * o / t ≤ 1 := by
  rw [givenOr_iff] at ht
  have nn : ∀ {v : PyVal K} {x : K}, IsNumber false v (.fin x) → (NotNegative v ↔ 0 ≤ x) := by
    intro v x hx
    constructor
    · rintro ⟨y, hy, hy'⟩
      obtain rfl := isNumber_unique hy hx
      simpa [less_iff] using hy'
    · intro h
      exact ⟨_, hx, by simpa [less_iff] using h⟩
  have nf : Fraction (orOne vt) ↔ t ≤ 1 := by
    constructor
    · rintro ⟨y, hy, -, hy'⟩
      obtain rfl := isNumber_unique hy ht
      simpa [less_iff] using hy'
    · intro h
      exact ⟨_, ht, by simpa [less_iff] using htp.le, by simpa [less_iff] using h⟩
  have ne : NotNegative (orOne ve) ↔ ∃ e, GivenOr 1 ve e ∧ ¬ Less e (.fin 0) := by
    simp only [NotNegative, givenOr_iff]
  have hq := oneOver_pos _ t (isNumber_num ht) htp
  rw [← nn hm, ← nn ho, ← nf, ← ne]
  rcases determineMask_cases vm vo vt ve g with ⟨h1, e, h'⟩ | ⟨h1, h2, e, h'⟩ | ⟨h1, h2, h3, e, h'⟩ |
    ⟨h1, h2, h3, h4, e, h'⟩ | ⟨h1, h2, h3, h4, ⟨e, he, h'⟩ | ⟨q, hq', h⟩⟩
  · simp [h', h1]
  · simp [h', h2]
  · simp [h', h3]
  · simp [h', h4]
  · rw [hq] at he; cases he
  · rw [hq] at hq'
    obtain rfl := Except.ok.inj hq'
    rw [isNumber_num hm, isNumber_num ho, product_eq] at h
    rcases h with ⟨hl, h'⟩ | ⟨hl, h'⟩
    · have : ¬ m * o / t ≤ 1 := by simpa [XF.lt] using hl
      simp [h', this]
    · have : m * o / t ≤ 1 := by simpa [XF.lt] using hl
      simp only [h', Prod.mk.injEq, true_and, exists_eq', h1, h2, h3, h4, this]

/-- A gradient over a 1×2×3 grid for the examples. -/
def Spec.grad123 : GGrad ℚ :=
  { prop := { cube123 with
      name := .gradient, unit := .none,
      data := ⟨[1, 2, 3], [.fin (1 / 10), .fin (1 / 2), .nan, .fin (3 / 10), .fin 1, .fin 0]⟩ },
    position := .float (.fin (1 / 4)), measured := none, error := none, orbital := none,
    transmission := none }

example : (GGrad.determineMask (.float (.fin (1 / 10))) (.int 2) (.float (.fin (1 / 2))) .none
    grad123).2.prop.mask = some ⟨[1, 2, 3], [true, false, true, true, false, true]⟩ := by
  decide +kernel

/-! ## C35 -/

/-- The mask of a gradient marks element `i`. -/
def Spec.Excludes (g : GGrad K) (i : ℕ) : Prop := Marked g.prop.mask i

/-- **C35** Take two argument tuples with `t ≤ t'`, `o' ≤ o`, `m' ≤ m` (finite, in range) for the same
data.  If `determine_mask` succeeds with the first, it succeeds with the second, and whatever the
second mask excludes was excluded by the first.  (`t = 0` — only possible without an exception for
numpy zeros — is included if the data has no negative elements.) -/
theorem C35_monotone (vm vo vt ve vm' vo' vt' ve' : PyVal K) (g g₁ g' : GGrad K)
    (m o t m' o' t' : K) (hm : IsNumber false vm (.fin m)) (ho : IsNumber false vo (.fin o))
    (ht : GivenOr 1 vt (.fin t)) (hm' : IsNumber false vm' (.fin m'))
    (ho' : IsNumber false vo' (.fin o')) (ht' : GivenOr 1 vt' (.fin t'))
    (he' : ∃ e, GivenOr 1 ve' e ∧ ¬ Less e (.fin 0))
    (h1 : m' ≤ m) (h2 : o' ≤ o) (h3 : t ≤ t') (hm0 : 0 ≤ m') (ho0 : 0 ≤ o') (ht0 : 0 < t')
    (ht1 : t' ≤ 1)
    (hdata : g'.prop.data = g.prop.data)
    (hpos : 0 < t ∨ ∀ x ∈ g.prop.data.data, ¬ Less x (.fin 0))
    (h : GGrad.determineMask vm vo vt ve g = (.ok (), g₁)) :
    ∃ g₁', GGrad.determineMask vm' vo' vt' ve' g' = (.ok (), g₁') ∧
      ∀ i, Excludes g₁' i → Excludes g₁ i := by
  obtain ⟨m₂, o₂, t₂, e₂, a1, a2, a3, -, -, -, b1, -, -, -, -, -, -, -, -, mask, c1, c2, c3⟩ :=
    C34_determine_mask vm vo vt ve g g₁ h
  obtain rfl := isNumber_unique a1 hm
  obtain rfl := isNumber_unique a2 ho
  rw [givenOr_iff] at ht a3
  obtain rfl := isNumber_unique a3 ht
  have hle : m' * o' / t' ≤ 1 ∧ ((∃ m₃ o₃ t₃, Finite3 (.fin m) (.fin o) (.fin t) m₃ o₃ t₃ ∧
      m' * o' / t' ≤ m₃ * o₃ / t₃) ∨ m' * o' / t' = 0) := by
    rcases c3 with ⟨m₃, o₃, t₃, hf, hle, -⟩ | ⟨hf, -⟩
    · obtain ⟨e1, e2, e3, hp⟩ := hf
      cases e1; cases e2; cases e3
      have : m' * o' / t' ≤ m * o / t := by
        apply div_le_div₀ (mul_nonneg (hm0.trans h1) (ho0.trans h2)) _ hp h3
        exact mul_le_mul h1 h2 ho0 (hm0.trans h1)
      exact ⟨this.trans hle, Or.inl ⟨m, o, t, ⟨rfl, rfl, rfl, hp⟩, this⟩⟩
    · have ht0' : t = 0 := by
        have b1 : 0 ≤ t := by simpa [less_iff] using b1
        rcases b1.eq_or_lt with e | e
        · exact e.symm
        · exact absurd ⟨m, o, t, rfl, rfl, rfl, e⟩ hf
      have hz : m' * o' = 0 := by
        subst ht0'
        -- with `t = 0` success means that the product was not above 1, so `m * o = 0`
        by_contra hne
        have hmp : 0 < m := lt_of_lt_of_le (lt_of_le_of_ne hm0 (by rintro rfl; simp at hne)) h1
        have hop : 0 < o := lt_of_lt_of_le (lt_of_le_of_ne ho0 (by rintro rfl; simp at hne)) h2
        rcases determineMask_cases vm vo vt ve g with ⟨-, e, h'⟩ | ⟨-, -, e, h'⟩ | ⟨-, -, -, e, h'⟩ |
          ⟨-, -, -, -, e, h'⟩ | ⟨-, -, -, -, ⟨e, -, h'⟩ | ⟨q, hq, ⟨-, h'⟩ | ⟨hl, h'⟩⟩⟩
        all_goals rw [h'] at h
        all_goals try (cases h; done)
        rw [oneOver_ok _ _ hq, isNumber_num ht, isNumber_num hm, isNumber_num ho] at hl
        simp [XF.div, XF.infSign, XF.mul, hmp, hop] at hl
      rw [hz]; simp
  obtain ⟨g₁', hg₁'⟩ := (C34_succeeds_iff vm' vo' vt' ve' g' m' o' t' hm' ho' ht' ht0).2
    ⟨hm0, ho0, ht1, he', hle.1⟩
  refine ⟨g₁', hg₁', ?_⟩
  obtain ⟨m₂, o₂, t₂, e₂, a1, a2, a3, -, -, -, -, -, -, -, -, -, -, -, -, mask', c1', c2', c3'⟩ :=
    C34_determine_mask vm' vo' vt' ve' g' g₁' hg₁'
  obtain rfl := isNumber_unique a1 hm'
  obtain rfl := isNumber_unique a2 ho'
  rw [givenOr_iff] at ht' a3
  obtain rfl := isNumber_unique a3 ht'
  rw [hdata] at c3'
  have hmask' : MasksBelow (m' * o' / t') g.prop.data.data mask'.data := by
    rcases c3' with ⟨m₃, o₃, t₃, ⟨e1, e2, e3, -⟩, -, h⟩ | ⟨hf, -⟩
    · cases e1; cases e2; cases e3; exact h
    · exact absurd ⟨m', o', t', rfl, rfl, rfl, ht0⟩ hf
  intro i hi
  unfold Excludes Marked at hi ⊢
  obtain ⟨mk, hk, hi⟩ := hi
  rw [c1'] at hk; cases hk
  refine ⟨mask, c1, ?_⟩
  have hlt : i < g.prop.data.data.length := by
    rw [← hmask'.1]; exact (List.getElem?_eq_some_iff.1 hi).1
  have hx := List.getElem?_eq_getElem hlt
  have hx' := (hmask'.2 i _ hx).1 hi
  rcases c3 with ⟨m₃, o₃, t₃, hf, hle₃, hb⟩ | ⟨hf, hb⟩
  · rw [hb.2 i _ hx]
    rcases hx' with hx' | hx'
    · exact Or.inl hx'
    · right
      obtain ⟨e1, e2, e3, hp⟩ := hf
      cases e1; cases e2; cases e3
      rcases hle.2 with ⟨m₃, o₃, t₃, ⟨e1, e2, e3, -⟩, hq⟩ | hz
      · cases e1; cases e2; cases e3
        rw [less_iff] at hx' ⊢
        generalize g.prop.data.data[i] = x at hx' ⊢
        cases x <;> simp [XF.lt] at hx' ⊢
        exact hx'.trans_le hq
      · have : (0 : K) ≤ m * o / t := by
          have := hm0.trans h1
          have := ho0.trans h2
          positivity
        rw [hz] at hx'
        rw [less_iff] at hx' ⊢
        generalize g.prop.data.data[i] = x at hx' ⊢
        cases x <;> simp [XF.lt] at hx' ⊢
        exact hx'.trans_le this
  · rw [hb.2 i _ hx]
    rcases hx' with hx' | hx'
    · exact hx'
    · exfalso
      rcases hle.2 with ⟨m₃, o₃, t₃, hf', -⟩ | hz
      · exact hf ⟨_, _, _, hf'⟩
      · rw [hz] at hx'
        rcases hpos with hpos | hpos
        · exact hf ⟨m, o, t, rfl, rfl, rfl, hpos⟩
        · exact hpos _ (List.getElem_mem hlt) hx'


example : (GGrad.determineMask (.float (.fin (1 / 10))) (.int 2) (.float (.fin 1)) .none
    grad123).2.prop.mask = some ⟨[1, 2, 3], [true, false, true, false, false, true]⟩ := by
  decide +kernel

/-! ## C36 -/

/-- **C36 (partial)** If `determine_mask` raises, data, mask, contrast settings and position are
unchanged, and each stored value is the old one or the new argument; if the measured gradient itself
is rejected nothing at all changes.  Missing for the full claim: the stored values do change in the
other cases (`C36_false`). -/
theorem C36_error_keeps_mask_partial (vm vo vt ve : PyVal K) (g g' : GGrad K) (e : Err)
    (h : GGrad.determineMask vm vo vt ve g = (.error e, g')) :
    g'.prop = g.prop ∧ g'.position = g.position ∧
    (g'.measured = g.measured ∨ g'.measured = some vm) ∧
    (g'.orbital = g.orbital ∨ g'.orbital = some vo) ∧
    (g'.transmission = g.transmission ∨ g'.transmission = some (orOne vt)) ∧
    (g'.error = g.error ∨ g'.error = some (orOne ve)) ∧
    (¬ NotNegative vm → g' = g) := by
  rcases determineMask_cases vm vo vt ve g with ⟨-, e, h'⟩ | ⟨h1, -, e, h'⟩ | ⟨h1, -, -, e, h'⟩ |
    ⟨h1, -, -, -, e, h'⟩ | ⟨h1, -, -, -, ⟨e, -, h'⟩ | ⟨q, -, ⟨-, h'⟩ | ⟨-, h'⟩⟩⟩
  all_goals rw [h'] at h
  all_goals (try (cases h; done))
  all_goals (obtain ⟨-, rfl⟩ := Prod.mk.inj h)
  all_goals simp_all [stored]

/-- **C36, exactly** What a call of `determine_mask` that raised has left behind: the arguments in the order in which
they are checked, up to the first that is not accepted, and if all four are accepted all of them.  Nothing else
changed, and `None` is stored as 1. -/
theorem C36_exact (vm vo vt ve : PyVal K) (g g' : GGrad K) (e : Err)
    (h : GGrad.determineMask vm vo vt ve g = (.error e, g')) :
    g' = { g with measured := g'.measured, orbital := g'.orbital, transmission := g'.transmission, error := g'.error } ∧
    (NotNegative vm → g'.measured = some vm) ∧ (¬ NotNegative vm → g'.measured = g.measured) ∧
    (NotNegative vm ∧ NotNegative vo → g'.orbital = some vo) ∧
    (¬ (NotNegative vm ∧ NotNegative vo) → g'.orbital = g.orbital) ∧
    (NotNegative vm ∧ NotNegative vo ∧ (∃ x, GivenOr 1 vt x ∧ ¬ Less x (.fin 0) ∧ ¬ Less (.fin 1) x) →
      g'.transmission = some (if vt = .none then .int 1 else vt)) ∧
    (¬ (NotNegative vm ∧ NotNegative vo ∧ ∃ x, GivenOr 1 vt x ∧ ¬ Less x (.fin 0) ∧ ¬ Less (.fin 1) x) →
      g'.transmission = g.transmission) ∧
    (NotNegative vm ∧ NotNegative vo ∧ (∃ x, GivenOr 1 vt x ∧ ¬ Less x (.fin 0) ∧ ¬ Less (.fin 1) x) ∧
      (∃ x, GivenOr 1 ve x ∧ ¬ Less x (.fin 0)) → g'.error = some (if ve = .none then .int 1 else ve)) ∧
    (¬ (NotNegative vm ∧ NotNegative vo ∧ (∃ x, GivenOr 1 vt x ∧ ¬ Less x (.fin 0) ∧ ¬ Less (.fin 1) x) ∧
      ∃ x, GivenOr 1 ve x ∧ ¬ Less x (.fin 0)) → g'.error = g.error) := by
  have ht : (∃ x, GivenOr 1 vt x ∧ ¬ Less x (.fin 0) ∧ ¬ Less (.fin 1) x) ↔ Fraction (orOne vt) := by
    simp only [givenOr_iff]; rfl
  have he : (∃ x, GivenOr 1 ve x ∧ ¬ Less x (.fin 0)) ↔ NotNegative (orOne ve) := by
    simp only [givenOr_iff]; rfl
  rw [ht, he]
  rcases determineMask_cases vm vo vt ve g with ⟨h1, e, h'⟩ | ⟨h1, h2, e, h'⟩ | ⟨h1, h2, h3, e, h'⟩ |
    ⟨h1, h2, h3, h4, e, h'⟩ | ⟨h1, h2, h3, h4, ⟨e, -, h'⟩ | ⟨q, -, ⟨-, h'⟩ | ⟨-, h'⟩⟩⟩
  all_goals rw [h'] at h
  all_goals (try (cases h; done))
  all_goals (obtain ⟨-, rfl⟩ := Prod.mk.inj h)
  · simp only [h1, false_and, not_false_eq_true, not_true_eq_false, forall_const, IsEmpty.forall_iff, and_self]
  · simp only [h1, h2, false_and, and_false, true_and, not_false_eq_true, not_true_eq_false, forall_const, IsEmpty.forall_iff, and_self]
  · simp only [h1, h2, h3, false_and, and_false, true_and, not_false_eq_true, not_true_eq_false, forall_const, IsEmpty.forall_iff, and_self]
  · simp only [h1, h2, h3, h4, and_false, true_and, not_false_eq_true, not_true_eq_false, forall_const, IsEmpty.forall_iff, and_self]
    simp [orOne]
  · simp only [h1, h2, h3, h4, true_and, not_true_eq_false, forall_const, IsEmpty.forall_iff, and_self]
    simp [stored, orOne]
  · simp only [h1, h2, h3, h4, true_and, not_true_eq_false, forall_const, IsEmpty.forall_iff, and_self]
    simp [stored, orOne]

/-- A call whose third argument is not accepted has stored the first two. -/
example : ∃ g' : GGrad ℚ, GGrad.determineMask (.float (.fin (1 / 10))) (.int 2) (.int 3) .none grad123 =
      (.error .valueError, g') ∧ g'.measured = some (.float (.fin (1 / 10))) ∧ g'.orbital = some (.int 2) ∧
    g'.transmission = grad123.transmission ∧ g'.error = grad123.error :=
  ⟨(GGrad.determineMask (.float (.fin (1 / 10))) (.int 2) (.int 3) .none grad123).2, by decide +kernel⟩

/-- **C36 is false**: after a successful call, a call whose scaled gradient exceeds 1 raises, but the
new values are stored beside the mask of the old ones, and from then on `get_scaled_gradient` raises
too. -/
theorem C36_false : ∃ g g' : GGrad ℚ,
    GGrad.determineMask (.float (.fin (1 / 10))) (.int 2) .none .none grad123 = (.ok (), g) ∧
    GGrad.determineMask (.int 3) (.int 2) .none .none g = (.error .valueError, g') ∧
    g' ≠ g ∧ g'.measured = some (.int 3) ∧ g'.prop.mask = g.prop.mask ∧
    g'.scaled = .error .valueError := by
  refine ⟨(GGrad.determineMask (.float (.fin (1 / 10))) (.int 2) .none .none grad123).2,
    (GGrad.determineMask (.int 3) (.int 2) .none .none
      (GGrad.determineMask (.float (.fin (1 / 10))) (.int 2) .none .none grad123).2).2, ?_⟩
  decide +kernel

/-! ## C37 -/

/-- Not a Python Boolean. -/
def Spec.NotBool (v : PyVal K) : Prop := ∀ b, v ≠ .bool b

/-- A value as it comes out of a loaded array of numbers. -/
def Spec.FromArray (v : PyVal K) (x : XF K) : Prop :=
  v = .npFloat .w64 x ∨ ∃ n : ℤ, v = .npInt .w64 n ∧ x = .fin n

theorem fromArray_isNumber {v : PyVal K} {x : XF K} (h : FromArray v x) : IsNumber false v x := by
  rcases h with rfl | ⟨n, rfl, rfl⟩
  · exact Or.inr ⟨rfl, .npFloat _ _⟩
  · exact Or.inl ⟨n, .npInt _ _, rfl⟩

theorem integerType_isOk_iff (v : PyVal K) : (integerType v).isOk = true ↔ ∃ n, IsInteger v n := by
  have := integerType_ok v
  cases h : integerType v with
  | error e =>
    simp only [Except.isOk, Except.toBool, Bool.false_eq_true, false_iff]
    rintro hn
    have := (this v).2 ⟨rfl, hn⟩
    rw [h] at this; cases this
  | ok w => simp only [Except.isOk, Except.toBool, true_iff]; exact ((this w).1 h).2

/-- Numbers that are not all Boolean survive an array: same values, as numpy scalars. -/
theorem npArray_scalars (l : List (PyVal K)) (hl : ∀ v ∈ l, IsNumber false v v.num)
    (hb : ∃ v ∈ l, NotBool v) :
    GGrad.npArray l ≠ .torn ∧ ∃ l', GGrad.blobScalars (GGrad.npArray l) = .ok l' ∧
      List.Forall₂ (fun v v' => FromArray v' v.num) l l' := by
  obtain ⟨v, hv, hnb⟩ := hb
  have h1 : l.all (fun v => isinstance v .bool) = false := by
    rw [List.all_eq_false]
    refine ⟨v, hv, ?_⟩
    rcases hl v hv with ⟨n, h, -⟩ | ⟨-, h⟩
    · cases h with
      | false => exact absurd rfl (hnb _)
      | true => exact absurd rfl (hnb _)
      | int n => simp [isinstance]
      | npInt w n => simp [isinstance]
    · cases h with
      | float x => simp [isinstance]
      | npFloat w x => cases w <;> simp [isinstance]
  unfold GGrad.npArray
  rw [h1]
  by_cases h2 : l.all (fun v => (integerType v).isOk) = true
  · rw [if_neg (by simp), if_pos h2]
    refine ⟨by simp, _, rfl, ?_⟩
    rw [List.map_map, List.forall₂_map_right_iff]
    rw [List.all_eq_true] at h2
    rw [List.forall₂_same]
    intro w hw
    obtain ⟨n, hn⟩ := (integerType_isOk_iff w).1 (h2 w hw)
    right
    refine ⟨n, ?_, isInteger_num hn⟩
    simp [isInteger_toInt hn]
  · rw [if_neg (by simp), if_neg h2]
    refine ⟨by simp, _, rfl, ?_⟩
    rw [List.map_map, List.forall₂_map_right_iff, List.forall₂_same]
    intro w _
    exact Or.inl rfl

/-- The gradient was left like this by a successful `determine_mask`. -/
def Spec.Determined (g : GGrad K) (vm vo vt ve : PyVal K) : Prop :=
  ∃ g0, GGrad.determineMask vm vo vt ve g0 = (.ok (), g)

theorem determineMask_congr {g : GGrad K} {vm vo vt ve : PyVal K} (h : Determined g vm vo vt ve)
    {a b c d : PyVal K} (ha : FromArray a vm.num) (hb : FromArray b vo.num)
    (hc : FromArray c (orOne vt).num) (hd : FromArray d (orOne ve).num) (g1 : GGrad K)
    (hg : g1.prop.data = g.prop.data) :
    GGrad.determineMask a b c d g1 = (.ok (), { stored g1 a b c d with
      prop := { g1.prop with mask := g.prop.mask } }) := by
  have on : ∀ {v : PyVal K} {x : XF K}, FromArray v x → orOne v = v := by
    intro v x h
    unfold orOne
    rcases h with rfl | ⟨n, rfl, -⟩ <;> simp
  obtain ⟨g0, h⟩ := h
  have ea := isNumber_num (fromArray_isNumber ha)
  have eb := isNumber_num (fromArray_isNumber hb)
  have ec := isNumber_num (fromArray_isNumber hc)
  have hq : oneOver c = .ok ((XF.fin 1).div (orOne vt).num) := by
    rw [← ec]
    rcases hc with rfl | ⟨n, rfl, -⟩ <;> rfl
  rcases determineMask_cases vm vo vt ve g0 with ⟨-, e, h'⟩ | ⟨-, -, e, h'⟩ | ⟨-, -, -, e, h'⟩ |
    ⟨-, -, -, -, e, h'⟩ | ⟨hm, ho, ht, he, ⟨e, -, h'⟩ | ⟨q, hq0, ⟨-, h'⟩ | ⟨hl, h'⟩⟩⟩
  all_goals rw [h'] at h
  all_goals try (cases h; done)
  have hg0 := (Prod.mk.inj h).2
  have hm' : NotNegative a := by
    obtain ⟨x, h1, h2⟩ := hm
    have := isNumber_num h1; subst this
    exact ⟨_, fromArray_isNumber ha, h2⟩
  have ho' : NotNegative b := by
    obtain ⟨x, h1, h2⟩ := ho
    have := isNumber_num h1; subst this
    exact ⟨_, fromArray_isNumber hb, h2⟩
  have ht' : Fraction c := by
    obtain ⟨x, h1, h2⟩ := ht
    have := isNumber_num h1; subst this
    exact ⟨_, fromArray_isNumber hc, h2⟩
  have he' : NotNegative d := by
    obtain ⟨x, h1, h2⟩ := he
    have := isNumber_num h1; subst this
    exact ⟨_, fromArray_isNumber hd, h2⟩
  have hmask : g.prop.mask = some ⟨g.prop.data.shape, g.prop.data.data.map
      (GGrad.maskAt (vm.num.mul (vo.num.mul q)))⟩ := by rw [← hg0]
  rcases determineMask_cases a b c d g1 with ⟨h1, -⟩ | ⟨-, h1, -⟩ | ⟨-, -, h1, -⟩ |
    ⟨-, -, -, h1, -⟩ | ⟨-, -, -, -, ⟨e, he, -⟩ | ⟨q', hq', h1⟩⟩
  · exact absurd hm' h1
  · exact absurd ho' h1
  · rw [on hc] at h1; exact absurd ht' h1
  · rw [on hd] at h1; exact absurd he' h1
  · rw [on hc, hq] at he; cases he
  · rw [on hc, hq] at hq'
    have e := oneOver_ok _ _ hq0
    rw [← e] at hq'
    cases hq'
    rw [ea, eb, hl] at h1
    rcases h1 with ⟨h1, -⟩ | ⟨-, h1⟩
    · cases h1
    · rw [h1, hmask, hg]

variable [FloorRing K]

/-- The files of a gradient in its own directory. -/
structure Spec.HasGrad (fs : FS K) (dir : Path) (g : GGrad K) : Prop where
  data : fs.at? (dir ++ ["GRADIENT_NONE.npy"]) = some (.file (.floats g.prop.data.shape g.prop.data.data))
  grid : HasGrid fs dir g.prop.params
  position : fs.at? (dir ++ ["position.npy"]) = some (.file (GGrad.npArray [g.position]))
  values : ∀ m o t e, g.measured = some m → g.orbital = some o → g.transmission = some t →
    g.error = some e → fs.at? (dir ++ ["mask_values.npy"]) = some (.file (GGrad.npArray [m, o, t, e]))

theorem load_hasGrad {fs : FS K} {dir : Path} {g : GGrad K} {vm vo vt ve : PyVal K}
    (h : HasGrad fs dir g) (hg : Consistent g.prop.params)
    (hs : g.prop.data.shape =
      [g.prop.params.gridShape.1, g.prop.params.gridShape.2.1, g.prop.params.gridShape.2.2])
    {x : XF K} (hx : IsNumber false g.position x) (hb : NotBool g.position)
    (hd : Determined g vm vo vt ve)
    (hnb : NotBool vm ∨ NotBool vo ∨ NotBool vt ∨ NotBool ve) :
    ∃ q, GGrad.load fs dir = .ok q ∧ q.prop.data = g.prop.data ∧ q.prop.mask = g.prop.mask ∧
      q.prop.params = g.prop.params ∧ IsNumber false q.position x ∧
      (∃ v, q.measured = some v ∧ IsNumber false v vm.num) ∧
      (∃ v, q.orbital = some v ∧ IsNumber false v vo.num) ∧
      (∃ v, q.transmission = some v ∧ IsNumber false v (orOne vt).num) ∧
      (∃ v, q.error = some v ∧ IsNumber false v (orOne ve).num) := by
  have hx' := isNumber_num hx
  subst hx'
  obtain ⟨pt, pl, hpl, hpf⟩ := npArray_scalars [g.position] (by simpa using hx)
    ⟨_, by simp, hb⟩
  obtain ⟨p', rfl, hp'⟩ : ∃ p', pl = [p'] ∧ FromArray p' g.position.num := by
    cases hpf with
    | cons h1 h2 => cases h2; exact ⟨_, rfl, h1⟩
  have hpos : GGrad.loadPosition fs dir = .ok p' := by
    unfold GGrad.loadPosition
    rw [FS.load_eq_ok h.position pt]
    simp only [bind, Except.bind]
    rw [hpl]
  -- the stored values
  obtain ⟨m1, m2, m3, m4, n1, n2, n3, n4⟩ : g.measured = some vm ∧ g.orbital = some vo ∧
      g.transmission = some (orOne vt) ∧ g.error = some (orOne ve) ∧ IsNumber false vm vm.num ∧
      IsNumber false vo vo.num ∧ IsNumber false (orOne vt) (orOne vt).num ∧
      IsNumber false (orOne ve) (orOne ve).num := by
    obtain ⟨g0, h⟩ := hd
    rcases determineMask_cases vm vo vt ve g0 with ⟨-, e, h'⟩ | ⟨-, -, e, h'⟩ | ⟨-, -, -, e, h'⟩ |
      ⟨-, -, -, -, e, h'⟩ | ⟨⟨x, hm, -⟩, ⟨x', ho, -⟩, ⟨x₂, ht, -⟩, ⟨x₃, he, -⟩, ⟨e, -, h'⟩ | ⟨q, hq0, ⟨-, h'⟩ | ⟨hl, h'⟩⟩⟩
    all_goals rw [h'] at h
    all_goals try (cases h; done)
    have hg0 := (Prod.mk.inj h).2
    rw [isNumber_num hm, isNumber_num ho, isNumber_num ht, isNumber_num he]
    exact ⟨by rw [← hg0]; rfl, by rw [← hg0]; rfl, by rw [← hg0]; rfl, by rw [← hg0]; rfl,
      hm, ho, ht, he⟩
  have nbo : ∀ v : PyVal K, NotBool v → NotBool (orOne v) := by
    intro v hv
    unfold orOne
    split_ifs
    · intro b; simp
    · exact hv
  obtain ⟨vt', vl, hvl, hvf⟩ := npArray_scalars [vm, vo, orOne vt, orOne ve]
    (by
      intro v hv
      simp only [List.mem_cons, List.not_mem_nil, or_false] at hv
      rcases hv with rfl | rfl | rfl | rfl <;> assumption)
    (by
      rcases hnb with h | h | h | h
      · exact ⟨_, by simp, h⟩
      · exact ⟨_, by simp, h⟩
      · exact ⟨orOne vt, by simp, nbo _ h⟩
      · exact ⟨orOne ve, by simp, nbo _ h⟩)
  obtain ⟨a, b, c, d, rfl, fa, fb, fc, fd⟩ : ∃ a b c d, vl = [a, b, c, d] ∧ FromArray a vm.num ∧
      FromArray b vo.num ∧ FromArray c (orOne vt).num ∧ FromArray d (orOne ve).num := by
    rcases hvf with _ | ⟨h1, hvf⟩
    rcases hvf with _ | ⟨h2, hvf⟩
    rcases hvf with _ | ⟨h3, hvf⟩
    rcases hvf with _ | ⟨h4, hvf⟩
    cases hvf
    exact ⟨_, _, _, _, rfl, h1, h2, h3, h4⟩
  have hval := h.values _ _ _ _ m1 m2 m3 m4
  -- the constructor
  obtain ⟨p, hp⟩ : ∃ p, p = (⟨.gradient, .none, g.prop.params, ⟨g.prop.data.shape, g.prop.data.data⟩, none,
    nanmin g.prop.data.data, nanmax g.prop.data.data, "viridis", 11⟩ : GProp K) := ⟨_, rfl⟩
  have hprop := (prop_new_ok_iff .gradient .none (.arr ⟨"float64", g.prop.data.shape, g.prop.data.data⟩)
    g.prop.params p).2 ⟨_, rfl, rfl, hs, hp⟩
  have hnum : number p' = .ok p' := by
    have := (number_iff p' p' (.float .ninf) (.float .pinf) _ _ (Or.inr ⟨rfl, .float _⟩)
      (Or.inr ⟨rfl, .float _⟩) (by rw [less_iff]; simp [XF.lt])).2
      ⟨rfl, by rw [isNumber_num (fromArray_isNumber hp')]; exact fromArray_isNumber hp',
        by rw [less_iff]; simp, by rw [less_iff]; simp⟩
    exact this
  have hnew : GGrad.new (.arr ⟨"float64", g.prop.data.shape, g.prop.data.data⟩) g.prop.params p' =
      .ok ⟨p, p', none, none, none, none⟩ := by
    unfold GGrad.new
    rw [hprop, hnum]
    rfl
  have hdm := determineMask_congr hd fa fb fc fd ⟨p, p', none, none, none, none⟩ (by rw [hp])
  have hwith : GGrad.withMaskValues fs (dir ++ ["mask_values.npy"]) ⟨p, p', none, none, none, none⟩ =
      .ok ⟨{ p with mask := g.prop.mask }, p', some a, some (orOne d), some b, some (orOne c)⟩ := by
    unfold GGrad.withMaskValues FS.exists?
    rw [hval, FS.load_eq_ok hval vt']
    simp only [Option.isSome_some, if_true, bind, Except.bind]
    rw [hvl]
    simp only
    rw [hdm]
    rfl
  have hname : GProp.fileName .gradient .none ++ ".npy" = "GRADIENT_NONE.npy" := by decide
  have hload : GGrad.loadBody fs dir =
      .ok ⟨{ p with mask := g.prop.mask }, p', some a, some (orOne d), some b, some (orOne c)⟩ := by
    unfold GGrad.loadBody
    rw [hname, loadNd_file h.data, load_hasGrid hg h.grid, hpos]
    simp only [bind, Except.bind]
    rw [hnew]
    simp only
    rw [hwith]
  have on : ∀ {v : PyVal K} {x : XF K}, FromArray v x → orOne v = v := by
    intro v x h
    unfold orOne
    rcases h with rfl | ⟨n, rfl, -⟩ <;> simp
  refine ⟨⟨{ p with mask := g.prop.mask }, p', some a, some (orOne d), some b, some (orOne c)⟩,
    by unfold GGrad.load; rw [hload], ?_, rfl, ?_, fromArray_isNumber hp',
    ⟨_, rfl, fromArray_isNumber fa⟩, ⟨_, rfl, fromArray_isNumber fb⟩, ⟨_, rfl, ?_⟩, ⟨_, rfl, ?_⟩⟩
  · rw [hp]
  · rw [hp]
  · rw [on fc]; exact fromArray_isNumber fc
  · rw [on fd]; exact fromArray_isNumber fd

theorem grad_save_files {fs fs' : FS K} {g : GGrad K} {dir : Path}
    (hname : g.prop.name = .gradient) (hunit : g.prop.unit = .none)
    (h : fs.run (g.saveSteps dir) = (.ok (), fs')) :
    HasGrad fs' (dir ++ [g.dirName]) g ∧
    (g.measured = none → fs.at? (dir ++ [g.dirName] ++ ["mask_values.npy"]) = none →
      fs'.at? (dir ++ [g.dirName] ++ ["mask_values.npy"]) = none) := by
  have hfile : GProp.fileName g.prop.name g.prop.unit ++ ".npy" = "GRADIENT_NONE.npy" := by
    rw [hname, hunit]; decide
  have hmfile : GProp.fileName g.prop.name g.prop.unit ++ "_mask.npy" = "GRADIENT_NONE_mask.npy" := by
    rw [hname, hunit]; decide
  generalize hsub : dir ++ [g.dirName] = sub at *
  have hlen : sub.length = dir.length + 1 := by rw [← hsub]; simp
  have hne : ∀ (f f' : String), sub ++ [f] ≠ dir ++ [f'] := by
    intro f f' e
    have := congrArg List.length e
    simp at this; omega
  have nor : ∀ d, Step.rmtreeIfExists d ∉ g.prop.params.saveSteps dir := saveSteps_no_rmtree _ _
  have now : ∀ (f : String) b, Step.write (sub ++ [f]) b ∉ g.prop.params.saveSteps dir := by
    intro f b hb
    simp only [GridParams.saveSteps, List.mem_cons, reduceCtorEq, Step.write.injEq, List.not_mem_nil,
      or_false, false_or] at hb
    rcases hb with hb | hb | hb | hb <;> exact hne _ _ hb.1
  have nomk : ∀ (f : String), sub ++ [f] ≠ dir := by
    intro f e
    have := congrArg List.length e
    simp at this; omega
  obtain ⟨vals, hvals⟩ : ∃ vals, vals = (match g.measured with
    | some _ => [Step.write (sub ++ ["mask_values.npy"]) g.maskValues]
    | none => ([] : List (Step K))) := ⟨_, rfl⟩
  have hsteps : g.saveSteps dir = [Step.mkdirIfMissing sub] ++ (g.prop.saveSteps sub ++
      (Step.write (sub ++ ["position.npy"]) (GGrad.npArray [g.position]) ::
        (vals ++ g.prop.params.saveSteps dir))) := by
    rw [hvals]
    unfold GGrad.saveSteps
    simp only [hsub, List.cons_append, List.append_assoc, List.nil_append]
    cases g.measured <;> rfl
  have valsmem : ∀ s ∈ vals, s = Step.write (sub ++ ["mask_values.npy"]) g.maskValues := by
    intro s hs
    rw [hvals] at hs
    cases hm : g.measured <;> simp [hm] at hs
    exact hs
  rw [hsteps] at h
  obtain ⟨f1, hf1, h⟩ := FS.run_append_ok h
  obtain ⟨f2, hp, h2⟩ := FS.run_append_ok h
  obtain ⟨p1, -, p3⟩ := prop_save_files hp
  rw [hfile] at p1
  -- the later steps
  have rest_no_rm : ∀ d, Step.rmtreeIfExists d ∉
      Step.write (sub ++ ["position.npy"]) (GGrad.npArray [g.position]) ::
        (vals ++ g.prop.params.saveSteps dir) := by
    intro d hd
    simp only [List.mem_cons, reduceCtorEq, false_or, List.mem_append] at hd
    rcases hd with hd | hd
    · cases valsmem _ hd
    · exact nor d hd
  have rest_write : ∀ (f : String) b, f ≠ "position.npy" → f ≠ "mask_values.npy" →
      Step.write (sub ++ [f]) b ∉ Step.write (sub ++ ["position.npy"]) (GGrad.npArray [g.position]) ::
        (vals ++ g.prop.params.saveSteps dir) := by
    intro f b h1 h2 hd
    simp only [List.mem_cons, Step.write.injEq, List.append_cancel_left_eq, List.cons.injEq, and_true,
      List.mem_append] at hd
    rcases hd with hd | hd | hd
    · exact h1 hd.1
    · have := valsmem _ hd
      simp only [Step.write.injEq, List.append_cancel_left_eq, List.cons.injEq, and_true] at this
      exact h2 this.1
    · exact now f b hd
  have keep : ∀ (f : String) n, f ≠ "position.npy" → f ≠ "mask_values.npy" →
      f2.at? (sub ++ [f]) = some n → fs'.at? (sub ++ [f]) = some n := by
    intro f n h1 h3 hn
    have := FS.run_frame_some f2 _ rest_no_rm (sub ++ [f]) (fun b => rest_write f b h1 h3) hn
    rw [h2] at this
    exact this
  refine ⟨⟨keep _ _ (by decide) (by decide) p1, ⟨keep _ _ (by decide) (by decide) p3.dx,
    keep _ _ (by decide) (by decide) p3.dy, keep _ _ (by decide) (by decide) p3.rf,
    keep _ _ (by decide) (by decide) p3.rfArray⟩, ?_, ?_⟩, ?_⟩
  · refine FS.run_written (ss := []) (ts := vals ++ g.prop.params.saveSteps dir) (by simpa using h2) ?_ ?_
    · intro d hd
      exact rest_no_rm d (List.mem_cons_of_mem _ hd)
    · intro b hd
      rw [List.mem_append] at hd
      rcases hd with hd | hd
      · have := valsmem _ hd
        simp at this
      · exact now _ _ hd
  · intro m o t e e1 e2 e3 e4
    have hv : vals = [Step.write (sub ++ ["mask_values.npy"]) (GGrad.npArray [m, o, t, e])] := by
      rw [hvals, e1]
      simp [GGrad.maskValues, e1, e2, e3, e4]
    rw [hv] at h2
    exact FS.run_written (ss := [Step.write (sub ++ ["position.npy"]) (GGrad.npArray [g.position])])
      (ts := g.prop.params.saveSteps dir) (by simpa using h2) nor (fun b => now _ b)
  · intro hm hf
    have hv : vals = [] := by rw [hvals, hm]
    have all : (fs.run (g.saveSteps dir)).2 = fs' := by
      rw [hsteps, FS.run_append]
      rw [hf1]
      simp only
      rw [h]
    rw [← all, hsteps, hv]
    have fn := (fileName_ne g.prop.name g.prop.unit).1 "mask_values.npy" (by simp)
    rw [FS.run_frame]
    · exact hf
    · intro d hd
      rw [hv] at rest_no_rm
      simp only [List.mem_append, List.mem_singleton, reduceCtorEq, false_or] at hd
      rcases hd with hd | hd
      · exact prop_no_rmtree _ _ _ hd
      · exact rest_no_rm d hd
    · intro b hd
      simp only [List.mem_append, reduceCtorEq, false_or, List.mem_cons,
        Step.write.injEq, List.append_cancel_left_eq, List.cons.injEq, and_true, List.nil_append,
        List.not_mem_nil] at hd
      rcases hd with hd | hd | hd
      · unfold GProp.saveSteps at hd
        simp only [List.mem_append] at hd
        rcases hd with (hd | hd) | hd
        · simp only [List.mem_cons, reduceCtorEq, Step.write.injEq, List.append_cancel_left_eq,
            List.cons.injEq, and_true, List.not_mem_nil, or_false, false_or] at hd
          exact fn.1 hd.1.symm
        · cases hk : g.prop.mask with
          | none => simp [hk] at hd
          | some k =>
            simp only [hk, List.mem_singleton, Step.write.injEq, List.append_cancel_left_eq,
              List.cons.injEq, and_true] at hd
            exact fn.2 hd.1.symm
        · have := params_write hd
          simp at this
      · exact absurd hd.1 (by decide)
      · exact now _ _ hd
    · intro hd
      cases hk : g.prop.mask <;>
        simp [hk, GProp.saveSteps, GridParams.saveSteps] at hd
    · intro hd
      cases hk : g.prop.mask <;>
        simp [hk, GProp.saveSteps, GridParams.saveSteps, nomk] at hd

/-- **C37 (partial)** A gradient whose mask comes from `determine_mask` and that is saved with
`save_gradient` — over whatever was in the directory before — is loaded back from its own directory
with the same data, mask, grid, position and measured values (as numbers).  Hypotheses: the state is
one the constructor and `determine_mask` leave; the position is not a Boolean and the four measured
values are not all Boolean.  Missing for the full claim: masks set by `set_mask`
(`C37_false_set_mask`), stale `mask_values` (`C37_false_stale`), Boolean positions
(`C37_false_bool`), and positions that agree to four decimals (`C37_false_collision`). -/
theorem C37_round_trip_partial (fs fs' : FS K) (g : GGrad K) (dir : Path) (vm vo vt ve : PyVal K)
    (hname : g.prop.name = .gradient) (hunit : g.prop.unit = .none)
    (hg : Consistent g.prop.params)
    (hs : g.prop.data.shape =
      [g.prop.params.gridShape.1, g.prop.params.gridShape.2.1, g.prop.params.gridShape.2.2])
    (x : XF K) (hx : IsNumber false g.position x) (hb : NotBool g.position)
    (hd : Determined g vm vo vt ve) (hnb : NotBool vm ∨ NotBool vo ∨ NotBool vt ∨ NotBool ve)
    (h : fs.run (g.saveSteps dir) = (.ok (), fs')) :
    ∃ q, GGrad.load fs' (dir ++ ["gradient_" ++ GGrad.fmt4 x]) = .ok q ∧
      q.prop.data = g.prop.data ∧ q.prop.mask = g.prop.mask ∧
      q.prop.params = g.prop.params ∧ IsNumber false q.position x ∧
      (∃ v, q.measured = some v ∧ IsNumber false v vm.num) ∧
      (∃ v, q.orbital = some v ∧ IsNumber false v vo.num) ∧
      (∃ v, q.transmission = some v ∧ IsNumber false v (orOne vt).num) ∧
      (∃ v, q.error = some v ∧ IsNumber false v (orOne ve).num) := by
  have hdir : g.dirName = "gradient_" ++ GGrad.fmt4 x := by
    unfold GGrad.dirName
    rw [isNumber_num hx]
  rw [← hdir]
  exact load_hasGrad (grad_save_files hname hunit h).1 hg hs hx hb hd hnb

/-- **C37** A gradient fresh from the constructor (no mask yet) is loaded back with the same data,
grid and position and without a mask, if its directory has no older `mask_values` file. -/
theorem C37_unmasked (fs fs' : FS K) (data position : PyVal K) (params : GridParams K) (g : GGrad K)
    (dir : Path) (hnew : GGrad.new data params position = .ok g)
    (hg : Consistent params) (x : XF K) (hx : IsNumber false position x) (hb : NotBool position)
    (hstale : fs.at? (dir ++ ["gradient_" ++ GGrad.fmt4 x, "mask_values.npy"]) = none)
    (h : fs.run (g.saveSteps dir) = (.ok (), fs')) :
    ∃ q, GGrad.load fs' (dir ++ ["gradient_" ++ GGrad.fmt4 x]) = .ok q ∧ q.prop = g.prop ∧
      IsNumber false q.position x ∧ q.measured = none := by
  have hx' := isNumber_num hx
  subst hx'
  obtain ⟨p, hp, hgp, hnn⟩ : ∃ p, GProp.new .gradient .none data params = .ok p ∧
      g = ⟨p, position, none, none, none, none⟩ ∧ number position = .ok position := by
    unfold GGrad.new at hnew
    cases hp : GProp.new .gradient .none data params with
    | error e => rw [hp] at hnew; cases hnew
    | ok p =>
      cases hn : number position with
      | error e => rw [hp, hn] at hnew; cases hnew
      | ok w =>
        have := ((number_iff position w (.float .ninf) (.float .pinf) _ _ (Or.inr ⟨rfl, .float _⟩)
          (Or.inr ⟨rfl, .float _⟩) (by rw [less_iff]; simp [XF.lt])).1 hn).1
        subst this
        rw [hp, hn] at hnew
        exact ⟨p, rfl, (Except.ok.inj hnew).symm, rfl⟩
  obtain ⟨a, rfl, hdt, hsh, hpe⟩ := (prop_new_ok_iff _ _ _ _ _).1 hp
  have e1 : g.prop = p := by rw [hgp]
  have e2 : g.position = position := by rw [hgp]
  have e3 : g.measured = none := by rw [hgp]
  have hname : g.prop.name = .gradient := by rw [e1, hpe]
  have hunit : g.prop.unit = .none := by rw [e1, hpe]
  have hdata : g.prop.data = ⟨a.shape, a.data⟩ := by rw [e1, hpe]
  have hpar : g.prop.params = params := by rw [e1, hpe]
  have hdir : g.dirName = "gradient_" ++ GGrad.fmt4 position.num := by
    unfold GGrad.dirName
    rw [e2]
  obtain ⟨hG, hno⟩ := grad_save_files hname hunit h
  rw [hdir] at hG hno
  have hno := hno e3 (by simpa using hstale)
  generalize dir ++ ["gradient_" ++ GGrad.fmt4 position.num] = sub at *
  obtain ⟨pt, pl, hpl, hpf⟩ := npArray_scalars [g.position] (by simpa [e2] using hx)
    ⟨g.position, by simp, by rw [e2]; exact hb⟩
  obtain ⟨p', rfl, hp'⟩ : ∃ p', pl = [p'] ∧ FromArray p' g.position.num := by
    cases hpf with
    | cons h1 h2 => cases h2; exact ⟨_, rfl, h1⟩
  have hpos : GGrad.loadPosition fs' sub = .ok p' := by
    unfold GGrad.loadPosition
    rw [FS.load_eq_ok hG.position pt]
    simp only [bind, Except.bind]
    rw [hpl]
  have hnum : number p' = .ok p' := by
    have := (number_iff p' p' (.float .ninf) (.float .pinf) _ _ (Or.inr ⟨rfl, .float _⟩)
      (Or.inr ⟨rfl, .float _⟩) (by rw [less_iff]; simp [XF.lt])).2
      ⟨rfl, by rw [isNumber_num (fromArray_isNumber hp')]; exact fromArray_isNumber hp',
        by rw [less_iff]; simp, by rw [less_iff]; simp⟩
    exact this
  have hprop := (prop_new_ok_iff .gradient .none (.arr ⟨"float64", g.prop.data.shape, g.prop.data.data⟩)
    params p).2 ⟨_, rfl, rfl, by rw [hdata]; exact hsh, by rw [hdata]; exact hpe⟩
  have hfile : GProp.fileName .gradient .none ++ ".npy" = "GRADIENT_NONE.npy" := by decide
  have hload : GGrad.loadBody fs' sub = .ok ⟨p, p', none, none, none, none⟩ := by
    unfold GGrad.loadBody
    rw [hfile, loadNd_file hG.data, load_hasGrid (by rw [hpar]; exact hg) hG.grid, hpos]
    simp only [bind, Except.bind]
    unfold GGrad.new
    rw [hpar, hprop, hnum]
    simp only [bind, Except.bind]
    unfold GGrad.withMaskValues FS.exists?
    rw [hno]
    rfl
  refine ⟨⟨p, p', none, none, none, none⟩, by unfold GGrad.load; rw [hload], e1.symm, ?_, rfl⟩
  rw [← e2]; exact fromArray_isNumber hp'

theorem toString_toList (n : ℕ) : (toString n).toList = Nat.toDigits 10 n := by
  rw [Nat.toString_eq_ofList_toDigits]; simp

theorem toDigits_inj {m n : ℕ} (h : Nat.toDigits 10 m = Nat.toDigits 10 n) : m = n := by
  rw [← Nat.ofDigitChars_ten_toDigits (n := m), h, Nat.ofDigitChars_ten_toDigits]

theorem digits4_toList (n : ℕ) : (GGrad.digits4 n).toList =
    [Nat.digitChar (n / 1000 % 10), Nat.digitChar (n / 100 % 10), Nat.digitChar (n / 10 % 10),
      Nat.digitChar (n % 10)] := by
  unfold GGrad.digits4
  simp only [String.toList_append, toString_toList]
  rw [Nat.toDigits_of_lt_base (Nat.mod_lt _ (by norm_num)),
    Nat.toDigits_of_lt_base (Nat.mod_lt _ (by norm_num)),
    Nat.toDigits_of_lt_base (Nat.mod_lt _ (by norm_num)),
    Nat.toDigits_of_lt_base (Nat.mod_lt _ (by norm_num))]
  rfl

theorem digitChar_inj {m n : ℕ} (hm : m < 10) (hn : n < 10) (h : Nat.digitChar m = Nat.digitChar n) :
    m = n := by
  rw [← Nat.toNat_digitChar_sub_48_of_lt_ten hm, h, Nat.toNat_digitChar_sub_48_of_lt_ten hn]

theorem fmt_parts {m n : ℕ}
    (h : toString (m / 10000) ++ "." ++ GGrad.digits4 (m % 10000) =
      toString (n / 10000) ++ "." ++ GGrad.digits4 (n % 10000)) : m = n := by
  have h := congrArg String.toList h
  simp only [String.toList_append, toString_toList, digits4_toList] at h
  obtain ⟨h1, h2⟩ := List.append_inj' h rfl
  obtain ⟨h1, -⟩ := List.append_inj' h1 rfl
  have h1 := toDigits_inj h1
  simp only [List.cons.injEq, and_true] at h2
  obtain ⟨a, b, c, d⟩ := h2
  have a := digitChar_inj (Nat.mod_lt _ (by norm_num)) (Nat.mod_lt _ (by norm_num)) a
  have b := digitChar_inj (Nat.mod_lt _ (by norm_num)) (Nat.mod_lt _ (by norm_num)) b
  have c := digitChar_inj (Nat.mod_lt _ (by norm_num)) (Nat.mod_lt _ (by norm_num)) c
  have d := digitChar_inj (Nat.mod_lt _ (by norm_num)) (Nat.mod_lt _ (by norm_num)) d
  omega

theorem roundHalfEven_near (x : K) : |(GGrad.roundHalfEven x : K) - x| ≤ 1 / 2 := by
  have h1 := Int.floor_le x
  have h2 := Int.lt_floor_add_one x
  unfold GGrad.roundHalfEven
  simp only
  rw [abs_le]
  split_ifs with a b c <;> push_cast <;> constructor <;> linarith

/-- **C37** Two gradients whose positions are at least 0 and more than 0.0001 apart are saved in
different directories, so neither overwrites the other. -/
theorem C37_own_directory (g g' : GGrad K) (x y : K) (hx : IsNumber false g.position (.fin x))
    (hy : IsNumber false g'.position (.fin y)) (h0 : 0 ≤ x) (h0' : 0 ≤ y)
    (h : 1 / 10000 < |x - y|) : g.dirName ≠ g'.dirName := by
  intro he
  unfold GGrad.dirName at he
  rw [isNumber_num hx, isNumber_num hy] at he
  simp only [GGrad.fmt4, not_lt.2 h0, not_lt.2 h0', if_false, abs_of_nonneg h0, abs_of_nonneg h0',
    String.empty_append] at he
  have he := congrArg String.toList he
  simp only [String.toList_append] at he
  have he := (List.append_inj he rfl).2
  have key : ∀ s t : String, s.toList = t.toList → s = t := fun s t h => String.toList_inj.1 h
  have hn := fmt_parts (key _ _ (by simpa only [String.toList_append] using he))
  have nn : ∀ z : K, 0 ≤ z → 0 ≤ GGrad.roundHalfEven z := by
    intro z hz
    have := Int.floor_nonneg.2 hz
    unfold GGrad.roundHalfEven
    simp only
    split_ifs <;> omega
  have e : GGrad.roundHalfEven (x * 10 ^ 4) = GGrad.roundHalfEven (y * 10 ^ 4) := by
    have a := nn (x * 10 ^ 4) (by positivity)
    have b := nn (y * 10 ^ 4) (by positivity)
    omega
  have a := roundHalfEven_near (x * 10 ^ 4)
  have b := roundHalfEven_near (y * 10 ^ 4)
  rw [e] at a
  rw [abs_le] at a b
  have : |x - y| ≤ 1 / 10000 := by
    rw [abs_le]
    constructor <;> linarith [a.1, a.2, b.1, b.2]
  exact absurd h (not_lt.2 this)

example : GGrad.fmt4 (.fin (1 / 4 : ℚ)) = "0.2500" := by decide +kernel
example : GGrad.fmt4 (.fin (-12345678 / 1000000 : ℚ)) = "-12.3457" := by decide +kernel

example :
    let g := (GGrad.determineMask (.float (.fin (1 / 10))) (.int 2) .none .none grad123).2
    (FS.run [] (g.saveSteps [])).1 = .ok () ∧
    (GGrad.load (FS.run [] (g.saveSteps [])).2 ["gradient_0.2500"]).toOption.map (·.prop.mask) =
      some (some ⟨[1, 2, 3], [true, false, true, false, false, true]⟩) := by
  decide +kernel

/-- **C37 is false**: the mask given to `set_mask` is saved but not loaded; the gradient comes back
without a mask. -/
theorem C37_false_set_mask : ∃ (g : GGrad ℚ) (q : GGrad ℚ) (fs : FS ℚ),
    g = { grad123 with prop := (GProp.setMask mask123 grad123.prop).2 } ∧ g.prop.mask ≠ none ∧
    FS.run [] (g.saveSteps []) = (.ok (), fs) ∧
    GGrad.load fs ["gradient_0.2500"] = .ok q ∧ q.prop.mask = none := by
  refine ⟨{ grad123 with prop := (GProp.setMask mask123 grad123.prop).2 },
    { grad123 with
      position := .npFloat .w64 (.fin (1 / 4)),
      prop := { grad123.prop with
        vmin := some (.fin 0), vmax := some (.fin 1), colorMap := "viridis", numColors := 11 } },
    (FS.run [] (GGrad.saveSteps { grad123 with prop := (GProp.setMask mask123 grad123.prop).2 } [])).2,
    ?_⟩
  decide +kernel

/-- **C37 is false**: a gradient without a mask, saved over one that had a mask, is loaded with the
old mask. -/
theorem C37_false_stale : ∃ (g : GGrad ℚ) (q : GGrad ℚ) (fs : FS ℚ),
    GGrad.determineMask (.float (.fin (1 / 10))) (.int 2) .none .none grad123 = (.ok (), g) ∧
    FS.run [] (g.saveSteps [] ++ grad123.saveSteps []) = (.ok (), fs) ∧
    grad123.prop.mask = none ∧
    GGrad.load fs ["gradient_0.2500"] = .ok q ∧
    q.prop.mask = some ⟨[1, 2, 3], [true, false, true, false, false, true]⟩ := by
  let g := (GGrad.determineMask (.float (.fin (1 / 10))) (.int 2) .none .none grad123).2
  let fs := (FS.run [] (g.saveSteps [] ++ grad123.saveSteps [])).2
  refine ⟨g, { grad123 with
      position := .npFloat .w64 (.fin (1 / 4)),
      measured := some (.npFloat .w64 (.fin (1 / 10))), orbital := some (.npFloat .w64 (.fin 2)),
      transmission := some (.npFloat .w64 (.fin 1)), error := some (.npFloat .w64 (.fin 1)),
      prop := { grad123.prop with
        mask := some ⟨[1, 2, 3], [true, false, true, false, false, true]⟩,
        vmin := some (.fin 0), vmax := some (.fin 1), colorMap := "viridis", numColors := 11 } },
    fs, ?_⟩
  decide +kernel

/-- **C37 is false**: two different gradients at positions 0.20001 and 0.20002 share a directory; after
saving both, loading the first gives the second. -/
theorem C37_false_collision : ∃ (g g' : GGrad ℚ) (q : GGrad ℚ) (fs : FS ℚ),
    g.position = .float (.fin (20001 / 100000)) ∧ g'.position = .float (.fin (20002 / 100000)) ∧
    g.dirName = g'.dirName ∧
    FS.run [] (g.saveSteps [] ++ g'.saveSteps []) = (.ok (), fs) ∧
    GGrad.load fs [g.dirName] = .ok q ∧ q.position.num = .fin (20002 / 100000) := by
  let g : GGrad ℚ := { grad123 with position := .float (.fin (20001 / 100000)) }
  let g' : GGrad ℚ := { grad123 with position := .float (.fin (20002 / 100000)) }
  refine ⟨g, g', { grad123 with
      position := .npFloat .w64 (.fin (20002 / 100000)),
      prop := { grad123.prop with
        vmin := some (.fin 0), vmax := some (.fin 1), colorMap := "viridis", numColors := 11 } },
    (FS.run [] (g.saveSteps [] ++ g'.saveSteps [])).2, ?_⟩
  decide +kernel

/-- **C37 is false**: a gradient at position `True` is accepted and saved but cannot be loaded (the
loaded position is a numpy Boolean, which is not accepted). -/
theorem C37_false_bool : ∃ (g : GGrad ℚ) (fs : FS ℚ),
    GGrad.new (.arr ⟨"float64", [1, 2, 3], [.fin 0, .fin 0, .fin 0, .fin 0, .fin 0, .fin 0]⟩)
      cube123.params (.bool true) = .ok g ∧
    FS.run [] (g.saveSteps []) = (.ok (), fs) ∧
    GGrad.load fs [g.dirName] = .error .loadError := by
  let g : GGrad ℚ := ⟨⟨.gradient, .none, cube123.params, ⟨[1, 2, 3],
    [.fin 0, .fin 0, .fin 0, .fin 0, .fin 0, .fin 0]⟩, none, some (.fin 0), some (.fin 0), "viridis",
    11⟩, .bool true, none, none, none, none⟩
  refine ⟨g, (FS.run [] (g.saveSteps [])).2, ?_⟩
  decide +kernel

end Beyonce
