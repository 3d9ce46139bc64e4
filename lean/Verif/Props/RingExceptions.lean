import Verif.Props.Exceptions
import Verif.Props.RingSystemInv

/-!
# Property C134: which exceptions a call of a ring system raises
-/

set_option linter.unusedSectionVars false

namespace Beyonce
open Spec

section
variable {K : Type} [Field K] [LinearOrder K] [IsStrictOrderedRing K]

/-! ## The parts -/

theorem except_raises {α β : Type} {x : Except Err α} {f : α → Except Err β} {e : Err}
    (h : (x >>= f) = .error e) : x = .error e ∨ ∃ a, x = .ok a ∧ f a = .error e := by
  cases x with
  | error e' => cases h; exact Or.inl rfl
  | ok a => exact Or.inr ⟨a, rfl, h⟩

/-- A number between bounds that are numbers is refused for its value. -/
theorem number_value_kind {ci ex : Bool} {v lo hi : PyVal K} (hv : ∃ x, IsNumber ci v x)
    (hl : ∃ x, IsNumber false lo x) (hh : ∃ x, IsNumber false hi x) {e : Err}
    (h : number v (.bool ci) lo hi (.bool ex) = .error e) : e = .valueError := by
  by_cases ha : Acceptable ci ex v lo hi
  · rw [(C01_number_ok_iff ci ex v v lo hi).2 ⟨rfl, ha⟩] at h; cases h
  · rw [(C01_number_errors ci ex v lo hi ha).1 ⟨hv, hl, hh⟩] at h; cases h; rfl

theorem float_counts (x : XF K) : ∃ y, IsNumber false (.float x) y := ⟨x, Or.inr ⟨rfl, .float x⟩⟩

theorem int_counts (c : Bool) (n : ℤ) : ∃ y, IsNumber c (.int n : PyVal K) y := ⟨_, Or.inl ⟨n, .int n, rfl⟩⟩

theorem index_kinds {v : PyVal K} {l u : ℤ} {e : Err} (h : number v (.bool true) (.int l) (.int u) = .error e) :
    (e = .typeError ∧ ∀ k, ¬ IsInteger v k) ∨ e = .valueError := by
  by_cases hv : ∃ k, IsInteger v k
  · obtain ⟨k, hk⟩ := hv
    exact Or.inr (number_value_kind ⟨_, Or.inl ⟨k, hk, rfl⟩⟩ (int_counts _ l) (int_counts _ u) h)
  · rcases number_kinds h with h | h
    · exact Or.inl ⟨h, fun k hk => hv ⟨k, hk⟩⟩
    · exact Or.inr h

theorem index_range {v w : PyVal K} {l u : ℤ} (h : number v (.bool true) (.int l) (.int u) = .ok w) :
    IsInteger v v.toInt ∧ l ≤ v.toInt ∧ v.toInt ≤ u := by
  obtain ⟨-, x, a, b, hx, -⟩ := (C01_number_ok_iff _ _ _ _ _ _).1 h
  rcases hx with ⟨n, hn, -⟩ | ⟨h', -⟩
  · have e : v.toInt = n := by cases hn <;> rfl
    rw [number_index hn] at h
    rw [e]
    split_ifs at h with hc
    exact ⟨hn, hc.2⟩
  · cases h'

theorem overlap_kinds {s : RSys K} {v : PyVal K} {r : RingObj K} {rep : Bool} {e : Err}
    (hrep : rep = true → v.toInt < s.rings.length) (h : preventOverlap s v r rep = .error e) :
    (e = .typeError ∧ ∀ k, ¬ IsInteger v k) ∨ e = .valueError ∨
      (e = .attributeError ∧ rep = false ∧ ∃ b, v = .bool b ∧ b.toNat < s.rings.length) := by
  unfold preventOverlap at h
  rcases except_raises h with h | ⟨w, hw, h⟩
  · rcases index_kinds h with h | h
    · exact Or.inl h
    · exact Or.inr (Or.inl h)
  · obtain ⟨hi, h0, h1⟩ := index_range hw
    obtain ⟨lower, hl, -⟩ := lowerNeighbour_spec s.rings v.toInt h0 h1 r
    rw [hl] at h
    simp only [bind, Except.bind] at h
    split_ifs at h with c1 c2
    · cases h; exact Or.inr (Or.inl rfl)
    · obtain ⟨upper, hu, -⟩ := upperNeighbour_spec s.rings (v.toInt + 1) (by omega) (by have := hrep c2; omega) r
      rw [c2, Bool.not_true, Bool.and_false, hu] at h
      simp only at h
      split_ifs at h
      cases h; exact Or.inr (Or.inl rfl)
    · cases hb : v.isBool with
      | false =>
        obtain ⟨upper, hu, -⟩ := upperNeighbour_spec s.rings v.toInt h0 h1 r
        rw [hb, Bool.false_and, hu] at h
        simp only at h
        split_ifs at h
        cases h; exact Or.inr (Or.inl rfl)
      | true =>
        have hf : rep = false := by simpa using c2
        obtain ⟨b, rfl⟩ : ∃ b, v = .bool b := by cases v <;> simp_all [PyVal.isBool]
        rw [hb, hf] at h
        unfold upperNeighbour at h
        by_cases hlen : (PyVal.bool b : PyVal K).toInt = s.rings.length
        · simp only [if_pos hlen] at h
          split_ifs at h
          cases h; exact Or.inr (Or.inl rfl)
        · simp only [if_neg hlen, Bool.not_false, Bool.and_self, if_true] at h
          cases h
          refine Or.inr (Or.inr ⟨rfl, hf, b, rfl, ?_⟩)
          cases b <;> simp [PyVal.toInt] at h1 hlen ⊢ <;> omega

theorem override_kinds {s : RSys K} {r : RingObj K} {e : Err}
    (h : (overrideCallersRing ⟨s, r⟩).1 = .error e) : e = .valueError := by
  replace h : (overrideGeometry s r).1 = .error e := h
  unfold overrideGeometry RingObj.setInclination RingObj.setTilt at h
  rcases bind_raises h with h | ⟨a, s', k, h⟩
  · rcases bind_raises h with h | ⟨a, s', k, h⟩
    · rcases except_raises h with h | ⟨a, k, h⟩
      · exact number_value_kind (float_counts _) (int_counts _ _) (int_counts _ _) h
      · cases h
    · cases h
  · rcases bind_raises h with h | ⟨a, s', k, h⟩
    · rcases except_raises h with h | ⟨a, k, h⟩
      · exact number_value_kind (float_counts _) (int_counts _ _) (int_counts _ _) h
      · cases h
    · cases h

/-- A ring made from floats is refused for the values only. -/
theorem newRing_kinds {i o t c p : PyVal K} (hi : ∃ x, IsNumber false i x) (ho : ∃ x, IsNumber false o x)
    (ht : ∃ x, IsNumber false t x) (hc : ∃ x, IsNumber false c x) (hp : ∃ x, IsNumber false p x) {e : Err}
    (h : newRing i o t c p = .error e) : e = .valueError := by
  unfold newRing at h
  rcases except_raises h with h | ⟨a, -, h⟩
  · unfold checkInner at h
    rcases except_raises h with h | ⟨z, -, h⟩
    · obtain ⟨x, ⟨n, hn, -⟩ | ⟨-, hn⟩⟩ := hi <;> cases hn <;> cases h
    · rcases except_raises h with h | ⟨a, -, h⟩
      · refine number_value_kind ?_ (float_counts _) (float_counts _) h
        cases z
        · exact hi
        · exact float_counts _
      · cases h
  rcases except_raises h with h | ⟨b, -, h⟩
  · rcases except_raises h with h | ⟨a, -, h⟩
    · exact number_value_kind ho (float_counts _) (float_counts _) h
    · cases h
  rcases except_raises h with h | ⟨b, -, h⟩
  · rcases except_raises h with h | ⟨a, -, h⟩
    · exact number_value_kind ht (float_counts _) (float_counts _) h
    · cases h
  rcases except_raises h with h | ⟨b, -, h⟩
  · rcases except_raises h with h | ⟨a, -, h⟩
    · exact number_value_kind hc (int_counts _ _) (int_counts _ _) h
    · cases h
  rcases except_raises h with h | ⟨b, -, h⟩
  · rcases except_raises h with h | ⟨a, -, h⟩
    · exact number_value_kind hp (int_counts _ _) (int_counts _ _) h
    · cases h
  cases h

theorem ringlet_kinds {rnd : K → K} {s : RSys K} {r : RingObj K} {d i : ℕ} {e : Err}
    (h : ringlet rnd s r d i = .error e) : e = .valueError :=
  newRing_kinds (float_counts _) (float_counts _) (float_counts _) (float_counts _) (float_counts _) h

theorem mapM_kinds {α β : Type} {f : α → Except Err β} {P : Err → Prop} (hf : ∀ a e, f a = .error e → P e) :
    ∀ (l : List α) (e : Err), l.mapM f = .error e → P e
  | [], e, h => by cases h
  | a :: l, e, h => by
    rw [List.mapM_cons] at h
    rcases except_raises h with h | ⟨b, -, h⟩
    · exact hf a e h
    · rcases except_raises h with h | ⟨c, -, h⟩
      · exact mapM_kinds hf l e h
      · cases h

theorem splitLoop_kinds {rnd : K → K} {s : RSys K} :
    ∀ (l : List (RingObj K × ℕ)) (e : Err), splitLoop rnd s l = .error e → e = .valueError
  | [], e, h => by cases h
  | (r, d) :: l, e, h => by
    unfold splitLoop at h
    rcases except_raises h with h | ⟨b, -, h⟩
    · exact mapM_kinds (fun a e => ringlet_kinds) _ e h
    · rcases except_raises h with h | ⟨c, -, h⟩
      · exact splitLoop_kinds l e h
      · cases h

theorem mergeLoop_kinds {rnd : K → K} {s : RSys K} {tol : XF K} : ∀ (l : List (RingObj K)) (i o t : XF K) (e : Err),
    mergeLoop rnd s tol i o t l = .error e → e = .valueError
  | [], i, o, t, e, h => by
    unfold mergeLoop at h
    rcases except_raises h with h | ⟨b, -, h⟩
    · exact newRing_kinds (float_counts _) (float_counts _) (float_counts _) (float_counts _)
        (float_counts _) h
    · cases h
  | r :: l, i, o, t, e, h => by
    unfold mergeLoop at h
    split_ifs at h
    · exact mergeLoop_kinds l _ _ _ e h
    · rcases except_raises h with h | ⟨b, -, h⟩
      · exact newRing_kinds (float_counts _) (float_counts _) (float_counts _) (float_counts _)
          (float_counts _) h
      · rcases except_raises h with h | ⟨c, -, h⟩
        · exact mergeLoop_kinds l _ _ _ e h
        · cases h

theorem array_is_arr {v lo hi x d n : PyVal K} {a : NpArr K} (h : array v lo hi x d n = .ok a) :
    ∃ b, v = .arr b := by
  unfold array at h
  rcases hv : arrayLike v with e | b
  · rw [hv] at h; cases h
  · cases v <;> first | exact ⟨_, rfl⟩ | cases hv

/-- The exceptions of the argument of `split_rings`: a `TypeError` for neither an integer nor an array of
integers, the two exceptions of shapes for an array only. -/
theorem divisions_kinds [FloorRing K] {s : RSys K} {v : PyVal K} {e : Err} (h : divisions s v = .error e) :
    (e = .typeError ∧ ∀ k, ¬ IsInteger v k) ∨ e = .valueError ∨
      ((e = .invalidDimensionsError ∨ e = .invalidShapeError) ∧ ∃ a, v = .arr a) := by
  unfold divisions at h
  cases hn : number v (.bool true) (.int 2) with
  | ok w => rw [hn] at h; cases h
  | error e' =>
    have hk : e' = .valueError ∨ (e' = .typeError ∧ ∀ k, ¬ IsInteger v k) := by
      by_cases hv : ∃ k, IsInteger v k
      · obtain ⟨k, hk⟩ := hv
        exact Or.inl (number_value_kind ⟨_, Or.inl ⟨k, hk, rfl⟩⟩ (int_counts _ 2) (float_counts _) hn)
      · rcases number_kinds hn with h | h
        · exact Or.inr ⟨h, fun k hk => hv ⟨k, hk⟩⟩
        · exact Or.inl h
    rw [hn] at h
    rcases hk with rfl | ⟨rfl, hno⟩
    · cases h; exact Or.inr (Or.inl rfl)
    · simp only at h
      rcases except_raises h with h | ⟨a, ha, h⟩
      · rcases array_kinds h with k | k | k
        · exact Or.inl ⟨k, hno⟩
        · exact Or.inr (Or.inl k)
        · refine Or.inr (Or.inr ⟨Or.inl k, ?_⟩)
          subst k
          cases v <;> first | exact ⟨_, rfl⟩ | cases h
      · obtain ⟨b, rfl⟩ := array_is_arr ha
        rcases except_raises h with h | ⟨c, -, h⟩
        · exact Or.inr (Or.inr ⟨Or.inr (sameShape_kinds (l := [b, ⟨"object", [s.rings.length], []⟩]) (by simp) h),
            b, rfl⟩)
        · cases h

/-! ## C134 -/

/-- The exception a call raises, if any. -/
def SysOp.raised [FloorRing K] (rnd : K → K) (s : RSys K) : SysOp K → Option Err
  | .add i r => failure (addRing i ⟨s, r⟩).1
  | .remove i => failure (removeRing i s).1
  | .replace i r => failure (replaceRing i ⟨s, r⟩).1
  | .split nd => failure (splitRings rnd nd s).1
  | .merge tol => failure (mergeRings rnd tol s).1
where
  failure {α : Type} : Except Err α → Option Err
    | .ok _ => none
    | .error e => some e

theorem sys_failure_eq {α : Type} {x : Except Err α} {e : Err} (h : SysOp.raised.failure x = some e) :
    x = .error e := by
  cases x <;> cases h
  rfl

/-- The exceptions a call of a ring system can raise. -/
def Spec.MayRaise : SysOp K → RSys K → Err → Prop
  | .add i _, s, e => (e = .typeError ∧ ∀ k, ¬ IsInteger i k) ∨ e = .valueError ∨
      (e = .attributeError ∧ ∃ b, i = .bool b ∧ b.toNat < s.rings.length)
  | .remove i, _, e | .replace i _, _, e => (e = .typeError ∧ ∀ k, ¬ IsInteger i k) ∨ e = .valueError
  | .split v, _, e => (e = .typeError ∧ ∀ k, ¬ IsInteger v k) ∨ e = .valueError ∨
      ((e = .invalidDimensionsError ∨ e = .invalidShapeError) ∧ ∃ a, v = .arr a)
  | .merge _, s, e => e = .valueError ∨ (e = .indexError ∧ s.rings = [])

/-- **C134 (partial)** On any system, with any argument and under any rounding, an editing call raises only the
exceptions of `MayRaise`: `TypeError` for an argument that is no integer, `ValueError`, for an array the two
exceptions about shapes, `AttributeError` from `add_ring` with a `bool` below the number of rings, `IndexError` from
`merge_rings` of a system without rings.  Missing for the full claim: these last two, which are not exceptions of
the validators (`C134_false`). -/
theorem C134_kinds_partial [FloorRing K] (rnd : K → K) (s : RSys K) (op : SysOp K) (e : Err)
    (h : op.raised rnd s = some e) : MayRaise op s e := by
  cases op with
  | add i r =>
    have h := sys_failure_eq h
    unfold addRing at h
    rw [Meth.get_bind] at h
    rcases bind_raises h with h | ⟨a, s', k, h⟩
    · rcases overlap_kinds (by simp) h with h | h | ⟨h, -, h'⟩
      · exact Or.inl h
      · exact Or.inr (Or.inl h)
      · exact Or.inr (Or.inr ⟨h, h'⟩)
    · have hs : s' = ⟨s, r⟩ := by
        have := congrArg Prod.snd k; exact this.symm
      subst hs
      rcases bind_raises h with h | ⟨a, s'', k, h⟩
      · exact Or.inr (Or.inl (override_kinds h))
      · cases h
  | remove i =>
    have h := sys_failure_eq h
    unfold removeRing at h
    rw [Meth.get_bind] at h
    rcases bind_raises h with h | ⟨a, s', k, h⟩
    · exact index_kinds h
    · rcases bind_raises h with h | ⟨a, s'', k, h⟩
      · replace h : npDelete s.rings i = .error e := h
        unfold npDelete at h
        split_ifs at h
        cases h; exact Or.inr rfl
      · cases h
  | replace i r =>
    have h := sys_failure_eq h
    unfold replaceRing at h
    rw [Meth.get_bind] at h
    rcases bind_raises h with h | ⟨a, s', k, h⟩
    · exact index_kinds h
    · have hn : number i (.bool true) (.int 0) (.int ((s.rings.length : ℤ) - 1)) = .ok a := congrArg Prod.fst k
      have hs : s' = ⟨s, r⟩ := (congrArg Prod.snd k).symm
      subst hs
      obtain ⟨-, -, h1⟩ := index_range hn
      rcases bind_raises h with h | ⟨a, s'', k, h⟩
      · rcases overlap_kinds (rep := true) (fun _ => by simp only; omega) h with h | h | ⟨-, h, -⟩
        · exact Or.inl h
        · exact Or.inr h
        · cases h
      · have hs : s'' = ⟨s, r⟩ := (congrArg Prod.snd k).symm
        subst hs
        rcases bind_raises h with h | ⟨a, s'', k, h⟩
        · exact Or.inr (override_kinds h)
        · cases h
  | split v =>
    have h := sys_failure_eq h
    unfold splitRings at h
    rw [Meth.get_bind] at h
    rcases bind_raises h with h | ⟨a, s', k, h⟩
    · exact divisions_kinds h
    · rcases bind_raises h with h | ⟨a, s'', k, h⟩
      · exact Or.inr (Or.inl (splitLoop_kinds _ _ h))
      · cases h
  | merge tol =>
    have h := sys_failure_eq h
    unfold mergeRings at h
    rw [Meth.get_bind] at h
    cases hr : s.rings with
    | nil =>
      rw [hr] at h
      cases h
      exact Or.inr ⟨rfl, hr⟩
    | cons r l =>
      rw [hr] at h
      simp only [Meth.lift_ok_bind] at h
      rcases bind_raises h with h | ⟨a, s', k, h⟩
      · exact Or.inl (mergeLoop_kinds _ _ _ _ _ h)
      · cases h

/-- Without a `bool` as an index, and as long as there are rings, only the exceptions of the validators are left. -/
theorem C134_validators [FloorRing K] (rnd : K → K) (s : RSys K) (op : SysOp K) (e : Err)
    (hb : ∀ b r, op ≠ .add (.bool b) r) (hr : s.rings ≠ []) (h : op.raised rnd s = some e) : Validation e := by
  have hk := C134_kinds_partial rnd s op e h
  unfold Validation
  cases op with
  | add i r =>
    rcases hk with ⟨hk, -⟩ | hk | ⟨-, b, hi, -⟩
    · exact Or.inl hk
    · exact Or.inr (Or.inl hk)
    · exact absurd (by rw [hi]) (hb b r)
  | remove i => rcases hk with ⟨hk, -⟩ | hk <;> simp [hk]
  | replace i r => rcases hk with ⟨hk, -⟩ | hk <;> simp [hk]
  | split v => rcases hk with ⟨hk, -⟩ | hk | ⟨hk | hk, -⟩ <;> simp [hk]
  | merge t =>
    rcases hk with hk | ⟨-, hk⟩
    · simp [hk]
    · exact absurd hk hr

/-- An index that is an integer of either kind never raises a `TypeError`, and an index that is none always does:
the kind of the exception tells which of the two the caller got wrong. -/
theorem C134_type [FloorRing K] (rnd : K → K) (s : RSys K) (i : PyVal K) (r : RingObj K) :
    (SysOp.raised rnd s (.add i r) = some .typeError ↔ ∀ k, ¬ IsInteger i k) ∧
    (SysOp.raised rnd s (.remove i) = some .typeError ↔ ∀ k, ¬ IsInteger i k) ∧
    (SysOp.raised rnd s (.replace i r) = some .typeError ↔ ∀ k, ¬ IsInteger i k) := by
  have hn : ∀ l u : ℤ, (∀ k, ¬ IsInteger i k) → number i (.bool true) (.int l) (.int u) = .error .typeError := by
    intro l u hi
    have hno : ¬ ∃ x, IsNumber true i x := by
      rintro ⟨x, ⟨k, hk, -⟩ | ⟨h, -⟩⟩
      · exact hi k hk
      · cases h
    refine (C01_number_errors true false i _ _ ?_).2 (fun h => hno h.1)
    rintro ⟨x, -, -, hx, -⟩
    exact hno ⟨x, hx⟩
  refine ⟨⟨fun h => ?_, fun h => ?_⟩, ⟨fun h => ?_, fun h => ?_⟩, ⟨fun h => ?_, fun h => ?_⟩⟩
  · rcases C134_kinds_partial rnd s _ _ h with ⟨-, h⟩ | h | ⟨h, -⟩
    · exact h
    · cases h
    · cases h
  · show SysOp.raised.failure (addRing i ⟨s, r⟩).1 = _
    unfold addRing preventOverlap
    rw [Meth.get_bind, hn _ _ h]
    rfl
  · rcases C134_kinds_partial rnd s _ _ h with ⟨-, h⟩ | h
    · exact h
    · cases h
  · show SysOp.raised.failure (removeRing i s).1 = _
    unfold removeRing
    rw [Meth.get_bind, hn _ _ h]
    rfl
  · rcases C134_kinds_partial rnd s _ _ h with ⟨-, h⟩ | h
    · exact h
    · cases h
  · show SysOp.raised.failure (replaceRing i ⟨s, r⟩).1 = _
    unfold replaceRing
    rw [Meth.get_bind, hn _ _ h]
    rfl

/-- `merge_rings` raises an `IndexError` exactly on a system without rings, whatever the tolerance. -/
theorem C134_index [FloorRing K] (rnd : K → K) (s : RSys K) (tol : XF K) :
    SysOp.raised rnd s (.merge tol) = some .indexError ↔ s.rings = [] := by
  constructor
  · intro h
    rcases C134_kinds_partial rnd s _ _ h with h | ⟨-, h⟩
    · cases h
    · exact h
  · intro h
    show SysOp.raised.failure (mergeRings rnd tol s).1 = _
    rw [C19_merge_empty s h rnd tol]
    rfl

/-- `add_ring(False, ring)` raises an `AttributeError` exactly on a system that has rings: it cannot be used to put
a ring in front of others. -/
theorem C134_attribute [FloorRing K] (rnd : K → K) (s : RSys K) (r : RingObj K) :
    SysOp.raised rnd s (.add (.bool false) r) = some .attributeError ↔ s.rings ≠ [] := by
  constructor
  · rintro h hr
    rcases C134_kinds_partial rnd s _ _ h with ⟨h, -⟩ | h | ⟨-, b, h, hb⟩
    · cases h
    · cases h
    · rw [hr] at hb; simp at hb
  · intro h
    have hlen : 0 < s.rings.length := List.length_pos_of_ne_nil h
    show SysOp.raised.failure (addRing (.bool false) ⟨s, r⟩).1 = _
    have hp : preventOverlap s (.bool false) r = .error .attributeError := by
      unfold preventOverlap
      rw [number_index (.false) 0 s.rings.length, if_pos (by omega)]
      have hl : lowerNeighbour s.rings (PyVal.bool false : PyVal K).toInt = .ok .ninf := by
        simp [lowerNeighbour, PyVal.toInt]
      have hu : upperNeighbour s.rings (PyVal.bool false : PyVal K).toInt true = .error .attributeError := by
        unfold upperNeighbour
        rw [if_neg (by simp [PyVal.toInt]; exact fun h' => h (List.length_eq_zero_iff.1 (by omega))), if_pos rfl]
      simp [bind, Except.bind, hl, hu, PyVal.isBool]
    unfold addRing
    rw [Meth.get_bind, hp]
    rfl

/-- **C134, the constructor**: a ring system is refused with an exception of the validators. -/
theorem C134_new {p i o t c φ : PyVal K} {e : Err} (h : newSystem p i o t c φ = .error e) : Validation e := by
  have hnum : ∀ {v c lo hi x : PyVal K}, number v c lo hi x = .error e → Validation e := fun h => by
    rcases number_kinds h with h | h <;> simp [Validation, h]
  have harr : ∀ {v lo hi x d n : PyVal K}, array v lo hi x d n = .error e → Validation e := fun h => by
    rcases array_kinds h with h | h | h <;> simp [Validation, h]
  unfold newSystem at h
  rcases except_raises h with h | ⟨_, -, h⟩
  · exact hnum h
  rcases except_raises h with h | ⟨_, -, h⟩
  · exact hnum h
  rcases except_raises h with h | ⟨_, -, h⟩
  · exact hnum h
  rcases except_raises h with h | ⟨a1, h1, h⟩
  · exact harr h
  rcases except_raises h with h | ⟨a2, h2, h⟩
  · exact harr h
  rcases except_raises h with h | ⟨a3, h3, h⟩
  · exact harr h
  obtain ⟨b1, rfl⟩ := array_is_arr h1
  obtain ⟨b2, rfl⟩ := array_is_arr h2
  obtain ⟨b3, rfl⟩ := array_is_arr h3
  rcases except_raises h with h | ⟨_, -, h⟩
  · have := sameShape_kinds (l := [b1, b2, b3]) (by simp) h
    simp [Validation, this]
  rcases except_raises h with h | ⟨_, -, h⟩
  · have hb : ∀ (x y : XF K) (l : List (XF K × XF K × XF K)) (e : Err), buildRings x y l = .error e →
        e = .valueError := by
      intro x y l
      induction l with
      | nil => intro e h; cases h
      | cons a l ih =>
        intro e h
        obtain ⟨u, v, w⟩ := a
        unfold buildRings at h
        rcases except_raises h with h | ⟨_, -, h⟩
        · exact newRing_kinds ⟨_, Or.inr ⟨rfl, .npFloat _ _⟩⟩ ⟨_, Or.inr ⟨rfl, .npFloat _ _⟩⟩
            ⟨_, Or.inr ⟨rfl, .npFloat _ _⟩⟩ (float_counts _) (float_counts _) h
        · rcases except_raises h with h | ⟨_, -, h⟩
          · exact ih e h
          · cases h
    have := hb _ _ _ _ h
    simp [Validation, this]
  · cases h

end

/-- **C134, false in full.** On systems that can be made: a `bool` as the position of a new ring raises
`AttributeError` although the validator accepts it, and merging after the last ring was removed raises
`IndexError`. -/
theorem C134_false : ∃ s : RSys ℚ, WellFormed s ∧
    (∃ r, ValidRing r ∧ SysOp.raised id s (.add (.bool false) r) = some .attributeError ∧
      SysOp.raised id s (.add (.int 0) r) = none) ∧
    SysOp.raised id s (.remove (.int 0)) = none ∧
    ∀ tol, SysOp.raised id (SysOp.exec s (.remove (.int 0))) (.merge tol) = some .indexError := by
  refine ⟨⟨.fin 1, .fin 10, .fin 20, [⟨.fin 3, .fin 4, .fin 0, .fin 10, .fin 20⟩]⟩, ?_,
    ⟨⟨.fin 1, .fin 2, .fin 0, .fin 10, .fin 20⟩, ?_, by decide +kernel, by decide +kernel⟩, by decide +kernel, ?_⟩
  · refine (wellFormed_iff _).2 ⟨⟨10, 20, rfl, rfl, by norm_num, by norm_num, by norm_num, by norm_num⟩,
      [⟨3, 4, 0⟩], rfl, ?_, ?_⟩
    · intro g hg
      obtain rfl := List.mem_singleton.1 hg
      exact ⟨by norm_num, by norm_num, by norm_num, by norm_num⟩
    · simp
  · exact ⟨1, 2, 0, 10, 20, rfl, by norm_num, by norm_num, by norm_num, by norm_num, by norm_num, by norm_num,
      by norm_num, by norm_num⟩
  · intro tol
    exact (C134_index id _ tol).2 (by decide +kernel)

/-- Non-vacuity: each kind of exception of the table is raised by some call of a system with two rings. -/
theorem C134_witness : ∃ s : RSys ℚ, s.rings.length = 2 ∧
    SysOp.raised id s (.remove (.float (.fin 0))) = some .typeError ∧
    SysOp.raised id s (.remove (.int 2)) = some .valueError ∧
    SysOp.raised id s (.replace (.int 0) ⟨.fin 1, .fin 5, .fin 0, .fin 0, .fin 0⟩) = some .valueError ∧
    SysOp.raised id s (.split (.arr ⟨"int64", [3], [.fin 2, .fin 2, .fin 2]⟩)) = some .invalidShapeError ∧
    SysOp.raised id s (.split (.arr ⟨"int64", [1, 2], [.fin 2, .fin 2]⟩)) = some .invalidDimensionsError ∧
    SysOp.raised id s (.split (.str "two")) = some .typeError ∧
    SysOp.raised id s (.merge (.fin 0)) = some .valueError ∧
    SysOp.raised id s (.split (.int 2)) = none :=
  ⟨⟨.fin 1, .fin 10, .fin 20, [⟨.fin 1, .fin 2, .fin 0, .fin 10, .fin 20⟩,
      ⟨.fin 3, .fin 4, .fin 0, .fin 10, .fin 20⟩]⟩, by decide +kernel, by decide +kernel, by decide +kernel,
    by decide +kernel, by decide +kernel, by decide +kernel, by decide +kernel, by decide +kernel,
    by decide +kernel⟩

end Beyonce
