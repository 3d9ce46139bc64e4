import Verif.Ring
import Verif.Props.Validate

/-!
# Properties C05, C06: `Ring` objects stay valid, setters are all-or-nothing
-/

set_option linter.unusedSectionVars false

namespace Beyonce
open Spec
variable {K : Type} [Field K] [LinearOrder K]

/-- A physically valid ring. -/
def Spec.ValidRing (r : RingObj K) : Prop :=
  ∃ a b t i p : K, r = ⟨.fin a, .fin b, .fin t, .fin i, .fin p⟩ ∧
    0 < a ∧ a < b ∧ 0 ≤ t ∧ t ≤ 1 ∧ 0 ≤ i ∧ i ≤ 90 ∧ -180 ≤ p ∧ p ≤ 180

/-- The argument is not a NaN. -/
def Spec.NotNan (v : PyVal K) : Prop := ¬ IsNumber false v .nan

/-! ## Helper lemmas -/

theorem number_ok_within {ci ex : Bool} {v w lo hi : PyVal K}
    (h : number v (.bool ci) lo hi (.bool ex) = .ok w) :
    w = v ∧ IsNumber ci v v.num ∧
      (v.num ≠ .nan → lo.num ≠ .nan → hi.num ≠ .nan → Within ex lo.num hi.num v.num) := by
  obtain ⟨h0, x, l, u, h1, h2, h3, h4, h5⟩ := (C01_number_ok_iff ci ex v w lo hi).1 h
  obtain rfl := isNumber_num h1
  obtain rfl := isNumber_num h2
  obtain rfl := isNumber_num h3
  refine ⟨h0, h1, fun hx hl hu => ?_⟩
  rw [not_violates_iff] at h5
  cases ex
  · simp only [Within, Bool.false_eq_true, if_false, lessEq_iff] at *
    rw [XF.lt_eq_not_le hx hl, XF.lt_eq_not_le hu hx] at h5
    simpa using h5
  · simp only [Within, if_true, less_iff] at *
    rw [XF.lt_eq_not_le hx hu, XF.lt_eq_not_le hl hx]
    simpa using h5

theorem isNumber_false_of {ci} {v : PyVal K} {x} (h : IsNumber ci v x) : IsNumber false v x := by
  rcases h with h | ⟨_, h⟩
  · exact Or.inl h
  · exact Or.inr ⟨rfl, h⟩

theorem number_ok_num_ne_nan {ci ex : Bool} {v w lo hi : PyVal K}
    (h : number v (.bool ci) lo hi (.bool ex) = .ok w) (hv : NotNan v) : w.num ≠ .nan := by
  obtain ⟨rfl, h1, -⟩ := number_ok_within h
  intro h2
  rw [h2] at h1
  exact hv (isNumber_false_of h1)

/-- Success of `validate.number` on a float with float bounds. -/
theorem number_float (x l u : XF K) (ex : Bool) :
    number (.float x) (.bool false) (.float l) (.float u) (.bool ex) =
      if XF.lt u l then .error .valueError else
      if (if ex then XF.le x l else XF.lt x l) || (if ex then XF.le u x else XF.lt u x)
      then .error .valueError else .ok (.float x) := by
  rfl

/-- Success of `validate.number` on a float with integer bounds. -/
theorem number_float_int (x : XF K) (l u : ℤ) :
    number (.float x) (.bool false) (.int l) (.int u) (.bool false) =
      if XF.lt (.fin (u : K)) (.fin l) then .error .valueError else
      if XF.lt x (.fin (l : K)) || XF.lt (.fin (u : K)) x
      then .error .valueError else .ok (.float x) := by
  rfl

/-- Success of `validate.number` on an integer with integer bounds. -/
theorem number_int_int (ci : Bool) (n l u : ℤ) :
    number (K := K) (.int n) (.bool ci) (.int l) (.int u) (.bool false) =
      if XF.lt (.fin (u : K)) (.fin (l : K)) then .error .valueError else
      if XF.lt (.fin (n : K)) (.fin (l : K)) || XF.lt (.fin (u : K)) (.fin (n : K))
      then .error .valueError else .ok (.int n) := by
  cases ci <;> rfl

variable [IsStrictOrderedRing K]

theorem tiny_pos : (0 : K) < tiny := by unfold tiny; positivity

theorem checkInner_fin (x : K) (u : XF K) (hx : x ≠ 0) :
    checkInner u (.float (.fin x)) =
      if XF.lt u (.fin 0) = false ∧ 0 < x ∧ XF.le u (.fin x) = false then .ok (.fin x)
      else .error .valueError := by
  have : eqZero (K := K) (.float (.fin x)) = .ok false := by simp [eqZero, PyVal.num, hx]
  unfold checkInner
  rw [this]
  simp only [bind, Except.bind, number_float, Bool.false_eq_true, if_false, if_true]
  by_cases h1 : XF.lt u (.fin 0) = true
  · simp [h1]
  · simp only [h1, Bool.false_eq_true, if_false, XF.le_fin]
    by_cases h2 : 0 < x
    · by_cases h3 : XF.le u (.fin x) = true
      · simp [h3]
      · simp [h2, h3, PyVal.num, not_le.2 h2]
    · simp [h2, not_lt.1 h2]

theorem checkOuter_fin (x a : K) :
    checkOuter (.fin a) (.float (.fin x)) =
      if a < x then .ok (.fin x) else .error .valueError := by
  unfold checkOuter
  simp only [bind, Except.bind, number_float, if_true, XF.lt_pinf, Bool.false_eq_true, if_false,
    XF.le_fin]
  by_cases h : a < x
  · simp [h, not_le.2 h, PyVal.num, XF.le]
  · simp [h, not_lt.1 h]

theorem checkTransmission_fin (x : K) :
    checkTransmission (.float (.fin x)) =
      if 0 ≤ x ∧ x ≤ 1 then .ok (.fin x) else .error .valueError := by
  unfold checkTransmission
  simp only [bind, Except.bind, number_float, Bool.false_eq_true, if_false, XF.lt_fin,
    not_lt.2 (zero_le_one (α := K)), decide_false]
  by_cases h : 0 ≤ x <;> by_cases h' : x ≤ 1 <;>
    simp [h, h', PyVal.num, not_lt.2] <;> simp_all

theorem checkInclination_fin (x : K) :
    checkInclination (.float (.fin x)) =
      if 0 ≤ x ∧ x ≤ 90 then .ok (.fin x) else .error .valueError := by
  unfold checkInclination
  have : ¬ ((90 : K) < 0) := by norm_num
  simp only [bind, Except.bind, number_float_int, XF.lt_fin, Int.cast_ofNat, Int.cast_zero, this,
    decide_false, Bool.false_eq_true, if_false]
  by_cases h : 0 ≤ x <;> by_cases h' : x ≤ 90 <;>
    simp [h, h', PyVal.num, not_lt.2] <;> simp_all

theorem checkTilt_fin (x : K) :
    checkTilt (.float (.fin x)) =
      if -180 ≤ x ∧ x ≤ 180 then .ok (.fin x) else .error .valueError := by
  unfold checkTilt
  have : ¬ ((180 : K) < -180) := by norm_num
  simp only [bind, Except.bind, number_float_int, XF.lt_fin, Int.cast_ofNat, Int.cast_neg, this,
    decide_false, Bool.false_eq_true, if_false]
  by_cases h : -180 ≤ x <;> by_cases h' : x ≤ 180 <;>
    simp [h, h', PyVal.num, not_lt.2] <;> simp_all

/-- The constructor on finite floats with a positive inner radius. -/
theorem newRing_fin (a b t i p : K) (ha : a ≠ 0) :
    newRing (.float (.fin a)) (.float (.fin b)) (.float (.fin t)) (.float (.fin i))
      (.float (.fin p)) =
      if 0 < a ∧ a < b ∧ (0 ≤ t ∧ t ≤ 1) ∧ (0 ≤ i ∧ i ≤ 90) ∧ -180 ≤ p ∧ p ≤ 180 then
        .ok ⟨.fin a, .fin b, .fin t, .fin i, .fin p⟩
      else .error .valueError := by
  unfold newRing
  rw [checkInner_fin a _ ha]
  by_cases h1 : 0 < a
  · have h1' : XF.le XF.pinf (XF.fin a) = false := rfl
    simp only [XF.lt_pinf, h1, h1', and_self, if_true, bind, Except.bind, checkOuter_fin, true_and]
    by_cases h2 : a < b
    · simp only [h2, if_true, checkTransmission_fin, true_and]
      by_cases h3 : 0 ≤ t ∧ t ≤ 1
      · simp only [h3, if_true, checkInclination_fin, true_and]
        by_cases h4 : 0 ≤ i ∧ i ≤ 90
        · simp only [h4, if_true, checkTilt_fin, true_and, and_self]
          by_cases h5 : -180 ≤ p ∧ p ≤ 180
          · simp [h5]
          · simp only [if_neg h5]
        · simp only [if_neg h4]
          rw [if_neg (fun h => h4 h.1)]
      · simp only [if_neg h3]
        rw [if_neg (fun h => h3 h.1)]
    · simp [h2]
  · simp [h1, bind, Except.bind]

theorem within_fin_fin {l u : K} {x : XF K} (h : Within false (.fin l) (.fin u) x) :
    ∃ y, x = .fin y ∧ l ≤ y ∧ y ≤ u := by
  simp only [Within, Bool.false_eq_true, if_false, lessEq_iff] at h
  cases x <;> simp_all [XF.le]

theorem checkTransmission_ok {v : PyVal K} {x} (hv : NotNan v) (h : checkTransmission v = .ok x) :
    ∃ y, x = .fin y ∧ 0 ≤ y ∧ y ≤ 1 := by
  unfold checkTransmission at h
  cases hn : number v (.bool false) (.float (.fin 0)) (.float (.fin 1)) (.bool false) with
  | error e => rw [hn] at h; simp [bind, Except.bind] at h
  | ok w =>
    rw [hn] at h
    simp only [bind, Except.bind, Except.ok.injEq] at h
    have hw := number_ok_num_ne_nan hn hv
    obtain ⟨rfl, _, h2⟩ := number_ok_within hn
    rw [← h]
    exact within_fin_fin (h2 hw (by simp [PyVal.num]) (by simp [PyVal.num]))

theorem checkInclination_ok {v : PyVal K} {x} (hv : NotNan v) (h : checkInclination v = .ok x) :
    ∃ y, x = .fin y ∧ 0 ≤ y ∧ y ≤ 90 := by
  unfold checkInclination at h
  cases hn : number v (.bool false) (.int 0) (.int 90) (.bool false) with
  | error e => rw [hn] at h; simp [bind, Except.bind] at h
  | ok w =>
    rw [hn] at h
    simp only [bind, Except.bind, Except.ok.injEq] at h
    have hw := number_ok_num_ne_nan hn hv
    obtain ⟨rfl, _, h2⟩ := number_ok_within hn
    rw [← h]
    have := within_fin_fin (h2 hw (by simp [PyVal.num]) (by simp [PyVal.num]))
    simpa using this

theorem checkTilt_ok {v : PyVal K} {x} (hv : NotNan v) (h : checkTilt v = .ok x) :
    ∃ y, x = .fin y ∧ -180 ≤ y ∧ y ≤ 180 := by
  unfold checkTilt at h
  cases hn : number v (.bool false) (.int (-180)) (.int 180) (.bool false) with
  | error e => rw [hn] at h; simp [bind, Except.bind] at h
  | ok w =>
    rw [hn] at h
    simp only [bind, Except.bind, Except.ok.injEq] at h
    have hw := number_ok_num_ne_nan hn hv
    obtain ⟨rfl, _, h2⟩ := number_ok_within hn
    rw [← h]
    have := within_fin_fin (h2 hw (by simp [PyVal.num]) (by simp [PyVal.num]))
    simpa using this

theorem checkOuter_ok {v : PyVal K} {x} {a : K} (hv : NotNan v) (h : checkOuter (.fin a) v = .ok x) :
    ∃ y, x = .fin y ∧ a < y := by
  unfold checkOuter at h
  cases hn : number v (.bool false) (.float (.fin a)) (.float .pinf) (.bool true) with
  | error e => rw [hn] at h; simp [bind, Except.bind] at h
  | ok w =>
    rw [hn] at h
    simp only [bind, Except.bind, Except.ok.injEq] at h
    have hw := number_ok_num_ne_nan hn hv
    obtain ⟨rfl, _, h2⟩ := number_ok_within hn
    rw [← h]
    have := h2 hw (by simp [PyVal.num]) (by simp [PyVal.num])
    simp only [Within, if_true, less_iff, PyVal.num_float] at this
    clear h2 hn h hv
    cases hy : PyVal.num w with
    | nan => simp [hy] at this
    | ninf => simp [hy] at this
    | pinf => simp [hy] at this
    | fin y => exact ⟨y, rfl, by simpa [hy] using this⟩

theorem checkInner_ok {v : PyVal K} {x u} (hv : NotNan v) (hu : u ≠ .nan)
    (h : checkInner u v = .ok x) : ∃ y, x = .fin y ∧ 0 < y ∧ XF.lt (.fin y) u = true := by
  unfold checkInner at h
  cases hz : eqZero v with
  | error e => rw [hz] at h; simp [bind, Except.bind] at h
  | ok z =>
    rw [hz] at h
    simp only [bind, Except.bind] at h
    have hv' : NotNan (if z then PyVal.float (.fin tiny) else v) := by
      cases z
      · simpa using hv
      · simp only [if_true]; rintro (⟨_, h, _⟩ | ⟨_, h⟩) <;> cases h
    generalize (if z then PyVal.float (.fin tiny) else v) = v' at *
    cases hn : number v' (.bool false) (.float (.fin 0)) (.float u) (.bool true) with
    | error e => rw [hn] at h; simp at h
    | ok w =>
      rw [hn] at h
      simp only [Except.ok.injEq] at h
      have hw := number_ok_num_ne_nan hn hv'
      obtain ⟨rfl, _, h2⟩ := number_ok_within hn
      rw [← h]
      have := h2 hw (by simp [PyVal.num]) (by simpa [PyVal.num] using hu)
      simp only [Within, if_true, less_iff, PyVal.num_float] at this
      generalize PyVal.num w = y at *
      cases y with
      | nan => simp at this
      | ninf => simp at this
      | pinf => simp at this
      | fin y => exact ⟨y, rfl, by simpa using this.1, this.2⟩

/-! ## C05 -/

theorem newRing_valid {i o t inc p : PyVal K} {r : RingObj K}
    (hi : NotNan i) (ho : NotNan o) (ht : NotNan t) (hinc : NotNan inc) (hp : NotNan p)
    (h : newRing i o t inc p = .ok r) : ValidRing r := by
  unfold newRing at h
  cases h1 : checkInner .pinf i with
  | error e => rw [h1] at h; simp [bind, Except.bind] at h
  | ok x1 =>
  rw [h1] at h
  obtain ⟨a, rfl, ha, -⟩ := checkInner_ok hi (by simp) h1
  cases h2 : checkOuter (.fin a) o with
  | error e => simp only [bind, Except.bind, h2] at h; cases h
  | ok x2 =>
  obtain ⟨b, rfl, hb⟩ := checkOuter_ok ho h2
  cases h3 : checkTransmission t with
  | error e => simp only [bind, Except.bind, h2, h3] at h; cases h
  | ok x3 =>
  obtain ⟨t', rfl, ht1, ht2⟩ := checkTransmission_ok ht h3
  cases h4 : checkInclination inc with
  | error e => simp only [bind, Except.bind, h2, h3, h4] at h; cases h
  | ok x4 =>
  obtain ⟨i', rfl, hi1, hi2⟩ := checkInclination_ok hinc h4
  cases h5 : checkTilt p with
  | error e => simp only [bind, Except.bind, h2, h3, h4, h5] at h; cases h
  | ok x5 =>
  obtain ⟨p', rfl, hp1, hp2⟩ := checkTilt_ok hp h5
  simp only [bind, Except.bind, h2, h3, h4, h5, Except.ok.injEq] at h
  subst h
  exact ⟨a, b, t', i', p', rfl, ha, hb, ht1, ht2, hi1, hi2, hp1, hp2⟩

theorem run_valid {op : RingOp K} {r : RingObj K} (hr : ValidRing r) (hop : NotNan op.arg) :
    ValidRing (Meth.exec op.run r) := by
  obtain ⟨a, b, t, i, p, rfl, ha, hab, ht1, ht2, hi1, hi2, hp1, hp2⟩ := hr
  cases op with
  | inner v =>
    simp only [Meth.exec, RingOp.run, RingObj.setInner, Meth.get_bind]
    cases h : checkInner (.fin b) v with
    | error e => exact ⟨a, b, t, i, p, rfl, ha, hab, ht1, ht2, hi1, hi2, hp1, hp2⟩
    | ok x =>
      obtain ⟨y, rfl, hy, hy2⟩ := checkInner_ok hop (by simp) h
      exact ⟨y, b, t, i, p, rfl, hy, by simpa using hy2, ht1, ht2, hi1, hi2, hp1, hp2⟩
  | outer v =>
    simp only [Meth.exec, RingOp.run, RingObj.setOuter, Meth.get_bind]
    cases h : checkOuter (.fin a) v with
    | error e => exact ⟨a, b, t, i, p, rfl, ha, hab, ht1, ht2, hi1, hi2, hp1, hp2⟩
    | ok x =>
      obtain ⟨y, rfl, hy⟩ := checkOuter_ok hop h
      exact ⟨a, y, t, i, p, rfl, ha, hy, ht1, ht2, hi1, hi2, hp1, hp2⟩
  | transmission v =>
    simp only [Meth.exec, RingOp.run, RingObj.setTransmission]
    cases h : checkTransmission v with
    | error e => exact ⟨a, b, t, i, p, rfl, ha, hab, ht1, ht2, hi1, hi2, hp1, hp2⟩
    | ok x =>
      obtain ⟨y, rfl, hy, hy2⟩ := checkTransmission_ok hop h
      exact ⟨a, b, y, i, p, rfl, ha, hab, hy, hy2, hi1, hi2, hp1, hp2⟩
  | inclination v =>
    simp only [Meth.exec, RingOp.run, RingObj.setInclination]
    cases h : checkInclination v with
    | error e => exact ⟨a, b, t, i, p, rfl, ha, hab, ht1, ht2, hi1, hi2, hp1, hp2⟩
    | ok x =>
      obtain ⟨y, rfl, hy, hy2⟩ := checkInclination_ok hop h
      exact ⟨a, b, t, y, p, rfl, ha, hab, ht1, ht2, hy, hy2, hp1, hp2⟩
  | tilt v =>
    simp only [Meth.exec, RingOp.run, RingObj.setTilt]
    cases h : checkTilt v with
    | error e => exact ⟨a, b, t, i, p, rfl, ha, hab, ht1, ht2, hi1, hi2, hp1, hp2⟩
    | ok x =>
      obtain ⟨y, rfl, hy, hy2⟩ := checkTilt_ok hop h
      exact ⟨a, b, t, i, y, rfl, ha, hab, ht1, ht2, hi1, hi2, hy, hy2⟩

/-- **C05 (partial)** However a ring is constructed and then edited by any sequence of
setter calls (the raising ones included), it is physically valid, as long as no argument is
NaN.  Missing for the full claim: NaN arguments, for which it is false (`C05_false`). -/
theorem C05_ring_always_valid_partial {i o t inc p : PyVal K} {r : RingObj K}
    (h : newRing i o t inc p = .ok r) (ops : List (RingOp K))
    (hi : NotNan i) (ho : NotNan o) (ht : NotNan t) (hinc : NotNan inc) (hp : NotNan p)
    (hops : ∀ op ∈ ops, NotNan op.arg) : ValidRing (runRingOps ops r) := by
  have h0 := newRing_valid hi ho ht hinc hp h
  clear h
  induction ops generalizing r with
  | nil => exact h0
  | cons op ops ih =>
    exact ih (fun o ho => hops o (by simp [ho])) (run_valid h0 (hops op (by simp)))

/-- Non-vacuity: a constructor call and setter calls that succeed and fail. -/
example : runRingOps [.inner (.int 0), .outer (.int 3), .inner (.int 3), .tilt (.int 200)]
    (⟨.fin 1, .fin 2, .fin 1, .fin 90, .fin 0⟩ : RingObj ℚ) =
    ⟨.fin (1 / 10 ^ 16), .fin 3, .fin 1, .fin 90, .fin 0⟩ := by decide +kernel
example : newRing (K := ℚ) (.int 1) (.float (.fin 2)) (.bool true) (.int 90) =
    .ok ⟨.fin 1, .fin 2, .fin 1, .fin 90, .fin 0⟩ := by decide +kernel

/-- **C05 is false with NaN**: a NaN inner radius is accepted, and then so is a negative
outer radius. -/
theorem C05_false : ∃ (i o t : PyVal K) (r : RingObj K), newRing i o t = .ok r ∧
    r.outer = .fin (-1) ∧ ¬ ValidRing r := by
  refine ⟨.float .nan, .float (.fin (-1)), .float (.fin 0),
    ⟨.nan, .fin (-1), .fin 0, .fin 0, .fin 0⟩, ?_, rfl, ?_⟩
  · have h1 : checkInner (K := K) .pinf (.float .nan) = .ok .nan := rfl
    have h2 : checkOuter (K := K) .nan (.float (.fin (-1))) = .ok (.fin (-1)) := rfl
    have h3 : checkTransmission (K := K) (.float (.fin 0)) = .ok (.fin 0) := by
      rw [checkTransmission_fin]; simp
    have h4 : checkInclination (K := K) (.int 0) = .ok (.fin 0) := by
      unfold checkInclination
      rw [number_int_int]
      norm_num [bind, Except.bind]
    have h5 : checkTilt (K := K) (.int 0) = .ok (.fin 0) := by
      unfold checkTilt
      rw [number_int_int]
      norm_num [bind, Except.bind]
    unfold newRing
    simp only [h1, h2, h3, h4, h5, bind, Except.bind]
  · rintro ⟨_, _, _, _, _, h, _⟩; simp at h

/-! ## C06 -/

/-- **C06** A setter that raises leaves the ring exactly as it was. -/
theorem C06_failed_setter_changes_nothing (op : RingOp K) (r : RingObj K) (e : Err)
    (h : (op.run r).1 = .error e) : (op.run r).2 = r := by
  cases op with
  | inner v =>
    simp only [RingOp.run, RingObj.setInner, Meth.get_bind] at *
    cases h' : checkInner r.outer v <;> simp_all
  | outer v =>
    simp only [RingOp.run, RingObj.setOuter, Meth.get_bind] at *
    cases h' : checkOuter r.inner v <;> simp_all
  | transmission v =>
    simp only [RingOp.run, RingObj.setTransmission] at *
    cases h' : checkTransmission v <;> simp_all
  | inclination v =>
    simp only [RingOp.run, RingObj.setInclination] at *
    cases h' : checkInclination v <;> simp_all
  | tilt v =>
    simp only [RingOp.run, RingObj.setTilt] at *
    cases h' : checkTilt v <;> simp_all

/-- What a setter call is supposed to do to a ring when it is given the number `x`. -/
def Spec.assigned (r : RingObj K) (x : XF K) : RingOp K → RingObj K
  | .inner _ => { r with inner := if x = .fin 0 then .fin (1 / 10 ^ 16) else x }
  | .outer _ => { r with outer := x }
  | .transmission _ => { r with transmission := x }
  | .inclination _ => { r with inclination := x }
  | .tilt _ => { r with tilt := x }

theorem number_num {ci ex : Bool} {v w lo hi : PyVal K} {x : XF K} (hv : IsNumber false v x)
    (h : number v (.bool ci) lo hi (.bool ex) = .ok w) : w.num = x := by
  obtain ⟨rfl, -, -⟩ := number_ok_within h
  exact isNumber_num hv

theorem eqZero_number {v : PyVal K} {x : XF K} (hv : IsNumber false v x) :
    eqZero v = .ok (XF.eqb x (.fin 0)) := by
  rcases hv with ⟨n, h, rfl⟩ | ⟨_, h⟩ <;> cases h <;> simp [eqZero, PyVal.num]

/-- **C06** A setter that succeeds with the number `x` changes only its own attribute, to `x`
(an inner radius of 0 becomes 1e-16). -/
theorem C06_successful_setter_sets_one_attribute (op : RingOp K) (r : RingObj K) (x : XF K)
    (hx : IsNumber false op.arg x) (h : (op.run r).1 = .ok ()) :
    (op.run r).2 = assigned r x op := by
  cases op with
  | inner v =>
    simp only [RingOp.run, RingObj.setInner, Meth.get_bind, RingOp.arg] at *
    cases h' : checkInner r.outer v with
    | error e => simp [h'] at h
    | ok y =>
      simp only [Meth.lift_ok_bind, Meth.modify_apply, assigned]
      unfold checkInner at h'
      rw [eqZero_number hx] at h'
      simp only [bind, Except.bind] at h'
      by_cases hz : x = .fin 0
      · subst hz
        simp only [XF.eqb_fin, decide_true, if_true] at h'
        cases hn : number (.float (.fin tiny)) (.bool false) (.float (.fin 0)) (.float r.outer)
          (.bool true) with
        | error e => rw [hn] at h'; cases h'
        | ok w =>
          rw [hn] at h'
          obtain ⟨rfl, -, -⟩ := number_ok_within hn
          cases h'
          simp [PyVal.num, tiny]
      · have : XF.eqb x (.fin 0) = false := by
          cases x <;> simp_all [XF.eqb]
        rw [this] at h'
        simp only [Bool.false_eq_true, if_false] at h'
        cases hn : number v (.bool false) (.float (.fin 0)) (.float r.outer) (.bool true) with
        | error e => rw [hn] at h'; cases h'
        | ok w => rw [hn] at h'; cases h'; simp [hz, number_num hx hn]
  | outer v =>
    simp only [RingOp.run, RingObj.setOuter, Meth.get_bind, RingOp.arg, checkOuter] at *
    cases hn : number v (.bool false) (.float r.inner) (.float .pinf) (.bool true) with
    | error e => simp [hn, bind, Except.bind] at h
    | ok w => simp [bind, Except.bind, assigned, number_num hx hn]
  | transmission v =>
    simp only [RingOp.run, RingObj.setTransmission, RingOp.arg, checkTransmission] at *
    cases hn : number v (.bool false) (.float (.fin 0)) (.float (.fin 1)) (.bool false) with
    | error e => simp [hn, bind, Except.bind] at h
    | ok w => simp [bind, Except.bind, assigned, number_num hx hn]
  | inclination v =>
    simp only [RingOp.run, RingObj.setInclination, RingOp.arg, checkInclination] at *
    cases hn : number v (.bool false) (.int 0) (.int 90) (.bool false) with
    | error e => simp [hn, bind, Except.bind] at h
    | ok w => simp [bind, Except.bind, assigned, number_num hx hn]
  | tilt v =>
    simp only [RingOp.run, RingObj.setTilt, RingOp.arg, checkTilt] at *
    cases hn : number v (.bool false) (.int (-180)) (.int 180) (.bool false) with
    | error e => simp [hn, bind, Except.bind] at h
    | ok w => simp [bind, Except.bind, assigned, number_num hx hn]

/-- When a number `x` is acceptable for a setter of a ring with radii `a < b`. -/
def Spec.settable (a b x : K) : RingOp K → Prop
  | .inner _ => (x = 0 ∧ 1 / 10 ^ 16 < b) ∨ (0 < x ∧ x < b)
  | .outer _ => a < x
  | .transmission _ => 0 ≤ x ∧ x ≤ 1
  | .inclination _ => 0 ≤ x ∧ x ≤ 90
  | .tilt _ => -180 ≤ x ∧ x ≤ 180

/-- **C06** On a valid ring a setter given the finite number `x` (as a float) succeeds
exactly when `x` is acceptable next to the other radius. -/
theorem C06_setter_succeeds_iff (op : RingOp K) (a b t i p x : K) (ha : 0 < a) (hab : a < b)
    (hx : op.arg = .float (.fin x)) :
    (op.run ⟨.fin a, .fin b, .fin t, .fin i, .fin p⟩).1 = .ok () ↔ settable a b x op := by
  cases op with
  | inner v =>
    simp only [RingOp.arg] at hx
    subst hx
    simp only [RingOp.run, RingObj.setInner, Meth.get_bind, settable]
    have hb : 0 < b := ha.trans hab
    by_cases h0 : x = 0
    · subst h0
      have : checkInner (.fin b) (.float (.fin (0 : K))) = checkInner (.fin b) (.float (.fin tiny)) := by
        have e1 : eqZero (K := K) (.float (.fin 0)) = .ok true := by simp [eqZero, PyVal.num]
        have e2 : eqZero (K := K) (.float (.fin tiny)) = .ok false := by
          simp [eqZero, PyVal.num, tiny_pos.ne']
        unfold checkInner; rw [e1, e2]; rfl
      rw [this, checkInner_fin _ _ tiny_pos.ne']
      simp only [XF.lt_fin, not_lt.2 hb.le, decide_false, tiny_pos, XF.le_fin, decide_eq_false_iff_not,
        not_le, true_and]
      by_cases h : tiny < b
      · simp [h]; simpa [tiny] using h
      · simp [h]; simpa [tiny] using h
    · rw [checkInner_fin _ _ h0]
      simp only [XF.lt_fin, not_lt.2 hb.le, decide_false, XF.le_fin, decide_eq_false_iff_not,
        not_le, true_and, h0, false_and, false_or]
      by_cases h : 0 < x ∧ x < b
      · simp [h]
      · simp [h]
  | outer v =>
    simp only [RingOp.arg] at hx
    subst hx
    simp only [RingOp.run, RingObj.setOuter, Meth.get_bind, settable, checkOuter_fin]
    by_cases h : a < x <;> simp [h]
  | transmission v =>
    simp only [RingOp.arg] at hx
    subst hx
    simp only [RingOp.run, RingObj.setTransmission, settable, checkTransmission_fin]
    by_cases h : 0 ≤ x ∧ x ≤ 1 <;> simp [h]
  | inclination v =>
    simp only [RingOp.arg] at hx
    subst hx
    simp only [RingOp.run, RingObj.setInclination, settable, checkInclination_fin]
    by_cases h : 0 ≤ x ∧ x ≤ 90 <;> simp [h]
  | tilt v =>
    simp only [RingOp.arg] at hx
    subst hx
    simp only [RingOp.run, RingObj.setTilt, settable, checkTilt_fin]
    by_cases h : -180 ≤ x ∧ x ≤ 180 <;> simp [h]

example : ((RingOp.inner (.float (.fin 0))).run (⟨.fin 1, .fin 2, .fin 0, .fin 0, .fin 0⟩ : RingObj ℚ)).1
    = .ok () :=
  (C06_setter_succeeds_iff (.inner (.float (.fin (0:ℚ)))) 1 2 0 0 0 0 (by norm_num) (by norm_num) rfl).2
    (Or.inl ⟨rfl, by norm_num⟩)

end Beyonce
