import Verif.GridProperty
import Verif.Props.GridDiagnostics

/-!
# Properties C30 – C33: `GridProperty`
-/

set_option linter.unusedSectionVars false

namespace Beyonce
open Spec
variable {K : Type} [Field K] [LinearOrder K]

/-- The number of elements of an array of this shape. -/
def Spec.size (shape : List ℕ) : ℕ := shape.prod

/-- Data and mask have the shapes and sizes of numpy arrays over the same grid. -/
structure Spec.WellShaped (p : GProp K) : Prop where
  data : p.data.data.length = size p.data.shape
  mask : ∀ m, p.mask = some m → m.shape = p.data.shape ∧ m.data.length = size m.shape

/-- A Boolean array that numpy can make. -/
structure Spec.BoolArray (v : PyVal K) (m : Mask) : Prop where
  arr : ∃ a : NpArr K, v = .arr a ∧ a.dtype = "bool" ∧ a.shape = m.shape ∧
    a.data.length = m.data.length ∧
    ∀ (i : ℕ) (x : XF K) (b : Bool), a.data[i]? = some x → m.data[i]? = some b → (b = true ↔ x ≠ .fin 0)
  size : m.data.length = Spec.size m.shape

/-- NaN where the mask is true and the old value elsewhere. -/
def Spec.MaskedBy (m : List Bool) (old new : List (XF K)) : Prop :=
  new.length = old.length ∧ ∀ i, (m[i]? = some true → i < old.length → new[i]? = some .nan) ∧
    (m[i]? ≠ some true → new[i]? = old[i]?)

variable [IsStrictOrderedRing K]

theorem putWhere_length {α : Type} (v : α) (ms : List Bool) (xs : List α) :
    (putWhere v ms xs).length = xs.length := by
  induction xs generalizing ms with
  | nil => cases ms <;> simp [putWhere]
  | cons x xs ih => cases ms <;> simp [putWhere, ih]

theorem putWhere_get {α : Type} (v : α) (ms : List Bool) (xs : List α) (i : ℕ) :
    (ms[i]? = some true → i < xs.length → (putWhere v ms xs)[i]? = some v) ∧
    (ms[i]? ≠ some true → (putWhere v ms xs)[i]? = xs[i]?) := by
  induction xs generalizing ms i with
  | nil => cases ms <;> simp [putWhere]
  | cons x xs ih =>
    cases ms with
    | nil => simp [putWhere]
    | cons m ms =>
      cases i with
      | zero => cases m <;> simp [putWhere]
      | succ i => simpa [putWhere] using ih ms i

theorem putWhere_maskedBy (ms : List Bool) (xs : List (XF K)) :
    MaskedBy ms xs (putWhere .nan ms xs) :=
  ⟨putWhere_length _ _ _, fun i => putWhere_get _ _ _ i⟩

/-! ## C30 -/

theorem array_bool_ok (v : PyVal K) (a : NpArr K) :
    array v (dtype := .str "bool") = .ok a ↔ v = .arr a ∧ a.dtype = "bool" := by
  have := C03_array_ok_iff false v a none none none (some "bool") (by simp) (by simp) (by simp)
  simp only [optArg, Option.map_some] at this
  rw [this]
  constructor
  · rintro ⟨h, -, -, h3⟩
    exact ⟨h, h3 _ rfl⟩
  · rintro ⟨h, h1⟩
    refine ⟨h, by simp, by simp, ?_⟩
    rintro d hd; cases hd; exact h1

theorem setMask_cases (v : PyVal K) (p : GProp K) :
    (∃ a, v = .arr a ∧ a.dtype = "bool" ∧ a.shape = p.data.shape ∧
      GProp.setMask v p = (.ok (), { p with mask := some a.toMask })) ∨
    ((∃ e, GProp.setMask v p = (.error e, p)) ∧
      ¬ ∃ a, v = .arr a ∧ a.dtype = "bool" ∧ a.shape = p.data.shape) := by
  unfold GProp.setMask
  simp only [Meth.get_bind]
  cases h1 : array v (dtype := .str "bool") with
  | error e =>
    right
    rw [Meth.lift_error_bind]
    refine ⟨⟨_, rfl⟩, ?_⟩
    rintro ⟨a, h2, h3, -⟩
    rw [(array_bool_ok v a).2 ⟨h2, h3⟩] at h1
    cases h1
  | ok a =>
    rw [Meth.lift_ok_bind]
    obtain ⟨rfl, hd⟩ := (array_bool_ok _ _).1 h1
    cases h3 : sameShapeArrays [PyVal.arr a, .arr ⟨"float64", p.data.shape, p.data.data⟩] 2 with
    | error e =>
      right
      rw [Meth.lift_error_bind]
      refine ⟨⟨_, rfl⟩, ?_⟩
      rintro ⟨a', h2, -, h4⟩
      cases h2
      rw [(sameShape2_ok a _).2 h4] at h3
      cases h3
    | ok u =>
      left
      exact ⟨a, rfl, hd, (sameShape2_ok a _).1 h3, by rw [Meth.lift_ok_bind, Meth.modify_apply]⟩

theorem toMask_eq {v : PyVal K} {m : Mask} (hm : BoolArray v m) :
    ∃ a : NpArr K, v = .arr a ∧ a.dtype = "bool" ∧ a.toMask = m := by
  obtain ⟨⟨a, rfl, h1, h2, h3, h4⟩, -⟩ := hm
  refine ⟨a, rfl, h1, ?_⟩
  obtain ⟨s, d⟩ := m
  simp only [NpArr.toMask, Mask.mk.injEq]
  refine ⟨h2, List.ext_getElem? fun i => ?_⟩
  simp only [List.getElem?_map]
  by_cases hi : i < a.data.length
  · have hi' : i < d.length := by simp only at h3; omega
    have := h4 i _ _ (List.getElem?_eq_getElem hi) (List.getElem?_eq_getElem hi')
    rw [List.getElem?_eq_getElem hi, List.getElem?_eq_getElem hi']
    simp only [Option.map_some, Option.some.injEq]
    rw [Bool.eq_iff_iff, this, decide_eq_true_iff]
  · rw [List.getElem?_eq_none (by omega), List.getElem?_eq_none (by simp only at h3; omega)]
    rfl

/-- **C30** After setting a mask of the grid's shape, a masked read succeeds, has the same shape, is
NaN at every masked element and the stored value at every other. -/
theorem C30_masked_read (p : GProp K) (v : PyVal K) (m : Mask) (hm : BoolArray v m)
    (hs : m.shape = p.data.shape) :
    ∃ p' out p'', GProp.setMask v p = (.ok (), p') ∧ p'.mask = some m ∧ p'.data = p.data ∧
      GProp.getData (.bool true) p' = (.ok out, p'') ∧ out.shape = p.data.shape ∧
      MaskedBy m.data p.data.data out.data := by
  obtain ⟨a, rfl, hd, rfl⟩ := toMask_eq hm
  rcases setMask_cases (.arr a) p with ⟨a', h1, h2, h3, h⟩ | ⟨-, h⟩
  · obtain rfl : a = a' := by simpa using h1
    refine ⟨_, ⟨p.data.shape, putWhere .nan a.toMask.data p.data.data⟩,
      { p with mask := some a.toMask, data := ⟨p.data.shape, putWhere .nan a.toMask.data p.data.data⟩ },
      h, rfl, rfl, ?_, rfl, putWhere_maskedBy _ _⟩
    unfold GProp.getData
    simp only [show boolean (K := K) (.bool true) = .ok true from rfl, Meth.lift_ok_bind,
      Meth.get_bind]
    rw [if_pos hs, Meth.modify_bind, Meth.get_bind]
    rfl
  · exact absurd ⟨a, rfl, hd, hs⟩ h

/-- **C30** `set_mask` accepts exactly Boolean arrays of the grid's shape; a refused mask changes
nothing. -/
theorem C30_set_mask_iff (p : GProp K) (v : PyVal K) :
    ((∃ p', GProp.setMask v p = (.ok (), p')) ↔
      ∃ a, v = .arr a ∧ a.dtype = "bool" ∧ a.shape = p.data.shape) ∧
    ∀ e p', GProp.setMask v p = (.error e, p') → p' = p := by
  rcases setMask_cases v p with ⟨a, h1, h2, h3, h⟩ | ⟨⟨e, h⟩, h'⟩
  · rw [h]
    refine ⟨⟨fun _ => ⟨a, h1, h2, h3⟩, fun _ => ⟨_, rfl⟩⟩, ?_⟩
    intro e p' he; cases he
  · rw [h]
    refine ⟨⟨?_, fun h => absurd h h'⟩, ?_⟩
    · rintro ⟨p', h⟩; cases h
    · intro e p' he; cases he; rfl

/-- **C30** An unmasked read, and any read without a mask, returns the stored data and changes
nothing. -/
theorem C30_unmasked_read (p : GProp K) (b : Bool) (h : b = false ∨ p.mask = none) :
    GProp.getData (.bool b) p = (.ok p.data, p) := by
  unfold GProp.getData
  have : boolean (K := K) (.bool b) = .ok b := rfl
  simp only [this, Meth.lift_ok_bind, Meth.get_bind]
  rcases h with rfl | h
  · rfl
  · rw [h]; cases b <;> rfl

/-- A 1×2×3 property for the examples. -/
def Spec.cube123 : GProp ℚ :=
  { name := .tilt, unit := .degree
    params := gridOf (.fin 0) (.fin 1) 2 (.fin 0) (.fin 1) 1 (.fin 2) 2
    data := ⟨[1, 2, 3], [.fin 1, .fin 2, .nan, .fin 4, .fin 5, .fin 6]⟩
    mask := none, vmin := some (.fin 1), vmax := some (.fin 6), colorMap := "viridis", numColors := 11 }

/-- A mask for it. -/
def Spec.mask123 : PyVal ℚ :=
  .arr ⟨"bool", [1, 2, 3], [.fin 1, .fin 0, .fin 0, .fin 0, .fin 1, .fin 0]⟩

example : GProp.new .tilt .degree (.arr ⟨"float64", [1, 2, 3],
    [.fin 1, .fin 2, .nan, .fin 4, .fin 5, .fin 6]⟩)
    (gridOf (.fin 0) (.fin 1) 2 (.fin 0) (.fin 1) 1 (.fin 2) 2) = .ok cube123 := by decide +kernel

example : BoolArray mask123 ⟨[1, 2, 3], [true, false, false, false, true, false]⟩ := by
  refine ⟨⟨_, rfl, rfl, rfl, rfl, ?_⟩, rfl⟩
  intro i x b h1 h2
  have : i < 6 := (List.getElem?_eq_some_iff.1 h1).1
  rcases i with _ | _ | _ | _ | _ | _ | i
  all_goals simp at h1 h2 this
  all_goals subst h1 h2; simp

/-! ## C31 -/

/-- A call of one of the methods of a `GridProperty` that touch its state. -/
inductive PropOp (K : Type)
  | setMask (v : PyVal K)
  | getData (masked : PyVal K)
  | setContrast (vmin vmax colorMap numColors : PyVal K)

/-- The state after the call. -/
def PropOp.exec : PropOp K → GProp K → GProp K
  | .setMask v, p => (GProp.setMask v p).2
  | .getData v, p => (GProp.getData v p).2
  | .setContrast a b c d, p => (GProp.setContrast a b c d p).2

/-- A sequence of calls by a user who catches every exception. -/
def runProp (ops : List (PropOp K)) (p : GProp K) : GProp K := ops.foldl (fun p op => op.exec p) p

/-- Is element `i` marked in a mask? -/
def Spec.Marked (m : Option Mask) (i : ℕ) : Prop := ∃ k, m = some k ∧ k.data[i]? = some true

/-- Element `i` is marked in the mask of this call of `set_mask`. -/
def Spec.Marks (v : PyVal K) (i : ℕ) : Prop :=
  ∃ a : NpArr K, v = .arr a ∧ ∃ x, a.data[i]? = some x ∧ x ≠ .fin 0

theorem setContrast_frame (vmin vmax c n : PyVal K) (p : GProp K) :
    (GProp.setContrast vmin vmax c n p).2.data = p.data ∧
    (GProp.setContrast vmin vmax c n p).2.mask = p.mask ∧
    (GProp.setContrast vmin vmax c n p).2.params = p.params ∧
    (GProp.setContrast vmin vmax c n p).2.name = p.name ∧
    (GProp.setContrast vmin vmax c n p).2.unit = p.unit := by
  have lim : let q := (GProp.setLimits vmin vmax p).2
      q.data = p.data ∧ q.mask = p.mask ∧ q.params = p.params ∧ q.name = p.name ∧ q.unit = p.unit := by
    unfold GProp.setLimits
    rw [Meth.get_bind]
    by_cases hall : p.data.data.all XF.isNan = true
    · rw [if_pos hall]; exact ⟨rfl, rfl, rfl, rfl, rfl⟩
    · rw [if_neg hall]
      cases h1 : number (limitOr vmin (nanmin p.data.data)) with
      | error e => exact ⟨rfl, rfl, rfl, rfl, rfl⟩
      | ok lo =>
        rw [Meth.lift_ok_bind, Meth.modify_bind]
        cases h2 : number (limitOr vmax (nanmax p.data.data)) with
        | error e => exact ⟨rfl, rfl, rfl, rfl, rfl⟩
        | ok hi => exact ⟨rfl, rfl, rfl, rfl, rfl⟩
  have col : ∀ p : GProp K, let q := (GProp.setColors c n p).2
      q.data = p.data ∧ q.mask = p.mask ∧ q.params = p.params ∧ q.name = p.name ∧ q.unit = p.unit := by
    intro p
    unfold GProp.setColors
    generalize string (if c = .none then .str "viridis" else c) = c'
    generalize number (if n = .none then .int 11 else n) (.bool true) (.int 2) = n'
    cases c' with
    | error e => exact ⟨rfl, rfl, rfl, rfl, rfl⟩
    | ok c' =>
      cases n' with
      | error e => exact ⟨rfl, rfl, rfl, rfl, rfl⟩
      | ok n' => exact ⟨rfl, rfl, rfl, rfl, rfl⟩
  unfold GProp.setContrast
  rw [Meth.bind_apply]
  generalize GProp.setLimits vmin vmax p = r at lim
  obtain ⟨r, q⟩ := r
  cases r with
  | error e => exact lim
  | ok u =>
    obtain ⟨l1, l2, l3, l4, l5⟩ := lim
    obtain ⟨c1, c2, c3, c4, c5⟩ := col q
    exact ⟨c1.trans l1, c2.trans l2, c3.trans l3, c4.trans l4, c5.trans l5⟩

theorem getData_cases (v : PyVal K) (p : GProp K) :
    (∃ m, v = .bool true ∧ p.mask = some m ∧ m.shape = p.data.shape ∧
      GProp.getData v p = (.ok ⟨p.data.shape, putWhere .nan m.data p.data.data⟩,
        { p with data := ⟨p.data.shape, putWhere .nan m.data p.data.data⟩ })) ∨
    (GProp.getData v p).2 = p := by
  unfold GProp.getData
  cases hb : boolean v with
  | error e => right; rfl
  | ok b =>
    have hv : v = .bool b := by
      cases v <;> simp_all [boolean, classObject, isinstance, bind, Except.bind]
    simp only [Meth.lift_ok_bind, Meth.get_bind]
    cases b with
    | false => right; rfl
    | true =>
      cases hm : p.mask with
      | none => right; rfl
      | some m =>
        simp only
        split_ifs with hs
        · left; exact ⟨m, hv, rfl, hs, by simp only [Meth.modify_bind, Meth.get_bind, hm]; rfl⟩
        · right; rfl

/-- **C31** Whatever is called, every element keeps its value or has become NaN, and the shape
stays. -/
theorem C31_value_or_nan (ops : List (PropOp K)) (p : GProp K) :
    (runProp ops p).data.shape = p.data.shape ∧
    (runProp ops p).data.data.length = p.data.data.length ∧
    ∀ i : ℕ, (runProp ops p).data.data[i]? = p.data.data[i]? ∨
      (runProp ops p).data.data[i]? = some XF.nan := by
  induction ops generalizing p with
  | nil => exact ⟨rfl, rfl, fun i => Or.inl rfl⟩
  | cons op ops ih =>
    have step : (op.exec p).data.shape = p.data.shape ∧
        (op.exec p).data.data.length = p.data.data.length ∧
        ∀ i : ℕ, (op.exec p).data.data[i]? = p.data.data[i]? ∨ (op.exec p).data.data[i]? = some XF.nan := by
      cases op with
      | setMask v =>
        rcases setMask_cases v p with ⟨a, -, -, -, h⟩ | ⟨⟨e, h⟩, -⟩ <;>
          simp [PropOp.exec, h]
      | getData v =>
        rcases getData_cases v p with ⟨m, -, -, -, h⟩ | h
        · simp only [PropOp.exec, h]
          refine ⟨trivial, putWhere_length _ _ _, fun i => ?_⟩
          by_cases hi : i < p.data.data.length
          · by_cases hm : m.data[i]? = some true
            · exact Or.inr ((putWhere_get _ _ _ i).1 hm hi)
            · exact Or.inl ((putWhere_get _ _ _ i).2 hm)
          · left
            rw [List.getElem?_eq_none (by rw [putWhere_length]; omega),
              List.getElem?_eq_none (by omega)]
        · simp [PropOp.exec, h]
      | setContrast a b c d =>
        have := (setContrast_frame a b c d p).1
        simp [PropOp.exec, this]
    obtain ⟨h1, h2, h3⟩ := ih (op.exec p)
    obtain ⟨s1, s2, s3⟩ := step
    refine ⟨h1.trans s1, h2.trans s2, fun i => ?_⟩
    show (runProp ops (op.exec p)).data.data[i]? = _ ∨ (runProp ops (op.exec p)).data.data[i]? = _
    rcases h3 i with h | h
    · rw [h]; exact s3 i
    · exact Or.inr h

/-- **C31** An element that no mask ever marked is never affected, by masked reads or anything
else. -/
theorem C31_unmarked_kept (ops : List (PropOp K)) (p : GProp K) (i : ℕ) (h0 : ¬ Marked p.mask i)
    (h : ∀ v, PropOp.setMask v ∈ ops → ¬ Marks v i) :
    (runProp ops p).data.data[i]? = p.data.data[i]? := by
  induction ops generalizing p with
  | nil => rfl
  | cons op ops ih =>
    have step : (op.exec p).data.data[i]? = p.data.data[i]? ∧ ¬ Marked (op.exec p).mask i := by
      cases op with
      | setMask v =>
        rcases setMask_cases v p with ⟨a, hv, -, -, hs⟩ | ⟨⟨e, hs⟩, -⟩
        · refine ⟨by simp [PropOp.exec, hs], ?_⟩
          rintro ⟨k, hk, hk'⟩
          simp only [PropOp.exec, hs, Option.some.injEq] at hk
          subst hk
          simp only [NpArr.toMask, List.getElem?_map, Option.map_eq_some_iff] at hk'
          obtain ⟨x, hx, hx'⟩ := hk'
          exact h v List.mem_cons_self ⟨a, hv, x, hx, by simpa using hx'⟩
        · simpa [PropOp.exec, hs] using h0
      | getData v =>
        rcases getData_cases v p with ⟨m, -, hm, -, hs⟩ | hs
        · simp only [PropOp.exec, hs]
          refine ⟨(putWhere_get _ _ _ i).2 ?_, by simpa using h0⟩
          intro hmi
          exact h0 ⟨m, hm, hmi⟩
        · simpa [PropOp.exec, hs] using h0
      | setContrast a b c d =>
        obtain ⟨h1, h2, -⟩ := setContrast_frame a b c d p
        simp only [PropOp.exec, h1, h2]
        exact ⟨trivial, h0⟩
    have := ih (op.exec p) step.2 fun v hv => h v (List.mem_cons_of_mem _ hv)
    rw [← step.1, ← this]
    rfl

/-- **C31 (partial)** Without a masked read, `get_data(False)` returns the data the history started
with.  Missing for the full claim: histories with a masked read, where it is false (`C31_false`). -/
theorem C31_no_masked_read_partial (ops : List (PropOp K)) (p : GProp K)
    (h : PropOp.getData (.bool true) ∉ ops) :
    (GProp.getData (.bool false) (runProp ops p)).1 = .ok p.data := by
  rw [C30_unmasked_read _ false (Or.inl rfl)]
  simp only
  induction ops generalizing p with
  | nil => rfl
  | cons op ops ih =>
    have step : (op.exec p).data = p.data := by
      cases op with
      | setMask v =>
        rcases setMask_cases v p with ⟨a, hv, -, -, hs⟩ | ⟨⟨e, hs⟩, -⟩ <;> simp [PropOp.exec, hs]
      | getData v =>
        rcases getData_cases v p with ⟨m, rfl, -⟩ | hs
        · exact absurd List.mem_cons_self h
        · simp [PropOp.exec, hs]
      | setContrast a b c d => exact (setContrast_frame a b c d p).1
    have := ih (op.exec p) fun hm => h (List.mem_cons_of_mem _ hm)
    rw [step] at this
    exact this

/-- **C31, exactly** After any history an element is NaN if at some masked read the mask marked it, and otherwise what
it was at the start. -/
theorem C31_exact (ops : List (PropOp K)) (p : GProp K)
    (hp : ∀ m, p.mask = some m → m.shape = p.data.shape) (i : ℕ) (hi : i < p.data.data.length) :
    ((∃ j : ℕ, ops[j]? = some (.getData (.bool true)) ∧ Marked (runProp (ops.take j) p).mask i) →
      (runProp ops p).data.data[i]? = some .nan) ∧
    ((¬ ∃ j : ℕ, ops[j]? = some (.getData (.bool true)) ∧ Marked (runProp (ops.take j) p).mask i) →
      (runProp ops p).data.data[i]? = p.data.data[i]?) := by
  induction ops generalizing p with
  | nil => exact ⟨fun ⟨j, h, _⟩ => by simp at h, fun _ => rfl⟩
  | cons op ops ih =>
    have step : ((op = .getData (.bool true) ∧ Marked p.mask i) → (op.exec p).data.data[i]? = some .nan) ∧
        (¬ (op = .getData (.bool true) ∧ Marked p.mask i) → (op.exec p).data.data[i]? = p.data.data[i]?) ∧
        (∀ m, (op.exec p).mask = some m → m.shape = (op.exec p).data.shape) ∧
        (op.exec p).data.data.length = p.data.data.length := by
      cases op with
      | setMask v =>
        rcases setMask_cases v p with ⟨a, hv, -, hsh, hs⟩ | ⟨⟨e, hs⟩, -⟩
        · simp only [PropOp.exec, hs]
          refine ⟨fun h => by simp at h, fun _ => by trivial, ?_, by trivial⟩
          intro m hm
          simp only [Option.some.injEq] at hm
          subst hm
          exact hsh
        · simp only [PropOp.exec, hs]
          exact ⟨fun h => by simp at h, fun _ => by trivial, hp, by trivial⟩
      | getData v =>
        rcases getData_cases v p with ⟨m, rfl, hm, hsh, hs⟩ | hs
        · simp only [PropOp.exec, hs]
          refine ⟨?_, ?_, ?_, putWhere_length _ _ _⟩
          · rintro ⟨-, k, hk, hk'⟩
            rw [hm] at hk
            cases hk
            exact (putWhere_get _ _ _ i).1 hk' hi
          · intro h
            exact (putWhere_get _ _ _ i).2 fun hk' => h ⟨by trivial, m, hm, hk'⟩
          · intro k hk
            exact hp k hk
        · simp only [PropOp.exec, hs]
          refine ⟨?_, fun _ => by trivial, hp, by trivial⟩
          rintro ⟨h, k, hk, hk'⟩
          cases h
          have hd : (GProp.getData (.bool true) p).2 =
              { p with data := ⟨p.data.shape, putWhere .nan k.data p.data.data⟩ } := by
            unfold GProp.getData
            have hb : boolean (K := K) (.bool true) = .ok true := rfl
            simp only [hb, Meth.lift_ok_bind, Meth.get_bind, hk]
            rw [if_pos (hp k hk)]
            simp only [Meth.modify_bind, Meth.get_bind, hk]
            rfl
          rw [hd] at hs
          have := congrArg (fun q : GProp K => q.data.data[i]?) hs
          simp only at this
          rw [← this]
          exact (putWhere_get _ _ _ i).1 hk' hi
      | setContrast a b c d =>
        obtain ⟨h1, h2, -⟩ := setContrast_frame a b c d p
        simp only [PropOp.exec, h1, h2]
        exact ⟨fun h => by simp at h, fun _ => by trivial, hp, by trivial⟩
    obtain ⟨s1, s2, s3, s4⟩ := step
    obtain ⟨i1, i2⟩ := ih (op.exec p) s3 (by rw [s4]; exact hi)
    have hrun : runProp (op :: ops) p = runProp ops (op.exec p) := rfl
    have htake : ∀ j : ℕ, runProp ((op :: ops).take (j + 1)) p = runProp (ops.take j) (op.exec p) := fun j => rfl
    rw [hrun]
    by_cases hlater : ∃ j : ℕ, ops[j]? = some (.getData (.bool true)) ∧ Marked (runProp (ops.take j) (op.exec p)).mask i
    · refine ⟨fun _ => i1 hlater, fun h => absurd ?_ h⟩
      obtain ⟨j, h1, h2⟩ := hlater
      exact ⟨j + 1, h1, h2⟩
    · rw [i2 hlater]
      constructor
      · rintro ⟨j, h1, h2⟩
        cases j with
        | zero =>
          simp only [List.getElem?_cons_zero, Option.some.injEq] at h1
          exact s1 ⟨h1, h2⟩
        | succ j => exact absurd ⟨j, h1, h2⟩ hlater
      · intro h
        refine s2 fun h0 => h ⟨0, by simp [h0.1], h0.2⟩

/-- Both halves of `C31_exact` on the history of `C31_false`: the mask marks element 0 and not element 1. -/
example : (∃ j : ℕ, [PropOp.setMask mask123, .getData (.bool true)][j]? = some (PropOp.getData (.bool true)) ∧
      Marked (runProp ([PropOp.setMask mask123, .getData (.bool true)].take j) cube123).mask 0) ∧
    (runProp [PropOp.setMask mask123, .getData (.bool true)] cube123).data.data[0]? = some .nan ∧
    (runProp [PropOp.setMask mask123, .getData (.bool true)] cube123).data.data[1]? = some (.fin 2) :=
  ⟨⟨1, rfl, ⟨[1, 2, 3], [true, false, false, false, true, false]⟩, by decide +kernel, by decide +kernel⟩,
    by decide +kernel, by decide +kernel⟩

/-- **C31 is false** with a masked read in between: the first element is lost, even after the mask
has been replaced by one that marks nothing. -/
theorem C31_false : ∃ (ops : List (PropOp ℚ)) (p : GProp ℚ),
    (GProp.getData (.bool false) p).1 = .ok ⟨[1, 2, 3], [.fin 1, .fin 2, .nan, .fin 4, .fin 5, .fin 6]⟩ ∧
    (GProp.getData (.bool false) (runProp ops p)).1 =
      .ok ⟨[1, 2, 3], [.nan, .fin 2, .nan, .fin 4, .nan, .fin 6]⟩ := by
  refine ⟨[.setMask mask123, .getData (.bool true),
    .setMask (.arr ⟨"bool", [1, 2, 3], [.fin 0, .fin 0, .fin 0, .fin 0, .fin 0, .fin 0]⟩)], cube123, ?_⟩
  decide +kernel

/-! ## C33 -/

theorem XF.le_trans' (a b c : XF K) (h : XF.le a b = true) (h' : XF.le b c = true) :
    XF.le a c = true := by
  cases a <;> cases b <;> cases c <;> simp_all [XF.le]
  exact le_trans h h'

theorem XF.le_refl' (a : XF K) (h : a ≠ .nan) : XF.le a a = true := by
  cases a <;> simp_all [XF.le]

theorem nanFold_spec (beyond R : XF K → XF K → Bool)
    (h1 : ∀ a b : XF K, a ≠ .nan → b ≠ .nan → beyond a b = true → R a b = true)
    (h2 : ∀ a b : XF K, a ≠ .nan → b ≠ .nan → beyond a b = false → R b a = true)
    (hr : ∀ a : XF K, a ≠ .nan → R a a = true)
    (ht : ∀ a b c, R a b = true → R b c = true → R a c = true) (l : List (XF K)) :
    (nanFold beyond l = none ↔ ∀ x ∈ l, x = .nan) ∧
    ∀ y, nanFold beyond l = some y → y ∈ l ∧ y ≠ .nan ∧ ∀ x ∈ l, x ≠ .nan → R y x = true := by
  induction l with
  | nil => simp [nanFold]
  | cons x xs ih =>
    obtain ⟨i1, i2⟩ := ih
    unfold nanFold
    cases hf : nanFold beyond xs with
    | none =>
      have hx := i1.1 hf
      by_cases hn : x = .nan
      · subst hn
        simp only [XF.isNan_nan, if_true]
        refine ⟨⟨fun _ => ?_, fun _ => trivial⟩, by simp⟩
        simpa using hx
      · have : x.isNan = false := by rw [Bool.eq_false_iff]; intro h; exact hn ((XF.isNan_iff x).1 h)
        simp only [this, Bool.false_eq_true, if_false]
        refine ⟨⟨fun h => by simp at h, fun h => absurd (h x List.mem_cons_self) hn⟩, ?_⟩
        rintro y hy
        obtain rfl : x = y := by simpa using hy
        refine ⟨List.mem_cons_self, hn, ?_⟩
        intro z hz hzn
        rcases List.mem_cons.1 hz with rfl | hz
        · exact hr _ hzn
        · exact absurd (hx z hz) hzn
    | some y =>
      obtain ⟨j1, j2, j3⟩ := i2 y hf
      have hne : ¬ ∀ x ∈ xs, x = .nan := fun h => j2 (h y j1)
      by_cases hn : x = .nan
      · subst hn
        simp only [XF.isNan_nan, if_true]
        refine ⟨⟨fun h => by simp at h, fun h => absurd (fun z hz => h z (List.mem_cons_of_mem _ hz)) hne⟩, ?_⟩
        rintro z hz
        obtain rfl : y = z := by simpa using hz
        refine ⟨List.mem_cons_of_mem _ j1, j2, ?_⟩
        intro z hz hzn
        rcases List.mem_cons.1 hz with rfl | hz
        · exact absurd rfl hzn
        · exact j3 z hz hzn
      · have : x.isNan = false := by rw [Bool.eq_false_iff]; intro h; exact hn ((XF.isNan_iff x).1 h)
        simp only [this, Bool.false_eq_true, if_false]
        cases hb : beyond y x with
        | true =>
          simp only [if_true]
          refine ⟨⟨fun h => by simp at h, fun h => absurd (fun z hz => h z (List.mem_cons_of_mem _ hz)) hne⟩, ?_⟩
          rintro z hz
          obtain rfl : y = z := by simpa using hz
          refine ⟨List.mem_cons_of_mem _ j1, j2, ?_⟩
          intro z hz hzn
          rcases List.mem_cons.1 hz with rfl | hz
          · exact h1 _ _ j2 hzn hb
          · exact j3 z hz hzn
        | false =>
          simp only [Bool.false_eq_true, if_false]
          refine ⟨⟨fun h => by simp at h, fun h => absurd (fun z hz => h z (List.mem_cons_of_mem _ hz)) hne⟩, ?_⟩
          rintro z hz
          obtain rfl : x = z := by simpa using hz
          refine ⟨List.mem_cons_self, hn, ?_⟩
          intro z hz hzn
          rcases List.mem_cons.1 hz with rfl | hz
          · exact hr _ hzn
          · exact ht _ _ _ (h2 _ _ j2 hn hb) (j3 z hz hzn)

theorem nanmin_spec (l : List (XF K)) :
    (nanmin l = none ↔ ∀ x ∈ l, x = .nan) ∧
    ∀ y, nanmin l = some y → y ∈ l ∧ y ≠ .nan ∧ ∀ x ∈ l, x ≠ .nan → LessEq y x := by
  simp only [lessEq_iff]
  refine nanFold_spec XF.lt XF.le ?_ ?_ XF.le_refl' XF.le_trans' l
  · intro a b ha hb h
    cases a <;> cases b <;> simp_all [XF.lt, XF.le]
    exact le_of_lt h
  · intro a b ha hb h
    cases a <;> cases b <;> simp_all [XF.lt, XF.le]

theorem nanmax_spec (l : List (XF K)) :
    (nanmax l = none ↔ ∀ x ∈ l, x = .nan) ∧
    ∀ y, nanmax l = some y → y ∈ l ∧ y ≠ .nan ∧ ∀ x ∈ l, x ≠ .nan → LessEq x y := by
  simp only [lessEq_iff]
  refine nanFold_spec (fun y x => XF.lt x y) (fun a b => XF.le b a) ?_ ?_ XF.le_refl'
    (fun a b c h h' => XF.le_trans' _ _ _ h' h) l
  · intro a b ha hb h
    cases a <;> cases b <;> simp_all [XF.lt, XF.le]
    exact le_of_lt h
  · intro a b ha hb h
    cases a <;> cases b <;> simp_all [XF.lt, XF.le]

theorem all_isNan (l : List (XF K)) : l.all XF.isNan = true ↔ ∀ x ∈ l, x = .nan := by
  simp [List.all_eq_true, XF.isNan_iff]

theorem setLimits_default (p : GProp K) : GProp.setLimits .none .none p =
    (.ok (), { p with vmin := nanmin p.data.data, vmax := nanmax p.data.data }) := by
  unfold GProp.setLimits
  rw [Meth.get_bind]
  by_cases hall : p.data.data.all XF.isNan = true
  · rw [if_pos hall]
    rw [all_isNan] at hall
    rw [((nanmin_spec _).1).2 hall, ((nanmax_spec _).1).2 hall]
    rfl
  · rw [if_neg hall]
    rw [all_isNan] at hall
    cases h1 : nanmin p.data.data with
    | none => exact absurd (((nanmin_spec _).1).1 h1) hall
    | some lo =>
    cases h2 : nanmax p.data.data with
    | none => exact absurd (((nanmax_spec _).1).1 h2) hall
    | some hi =>
      simp only [limitOr]
      rw [(number_default (.npFloat .w64 lo) _).2 ⟨rfl, _, isNum_float64 _⟩, Meth.lift_ok_bind,
        Meth.modify_bind, (number_default (.npFloat .w64 hi) _).2 ⟨rfl, _, isNum_float64 _⟩,
        Meth.lift_ok_bind, Meth.modify_apply]
      rfl

/-- What `set_contrast_parameters(color_map=…)` leaves. -/
theorem setContrast_color (c : PyVal K) (name : String)
    (hc : string (if c = .none then .str "viridis" else c) = .ok name) (p : GProp K) :
    GProp.setContrast .none .none c .none p = (.ok (), { p with
      vmin := nanmin p.data.data, vmax := nanmax p.data.data, colorMap := name,
      numColors := 11 }) := by
  have hn : number (K := K) (if (PyVal.none : PyVal K) = .none then .int 11 else .none) (.bool true)
      (.int 2) = .ok (.int 11) := by
    rw [if_pos rfl, number_lower true _ _ (.int 2) (.fin 2) (Or.inl ⟨2, .int 2, by simp⟩)]
    refine ⟨rfl, .fin 11, Or.inl ⟨11, .int 11, by simp⟩, ?_⟩
    rw [less_iff]; simp; norm_num
  have col : ∀ q : GProp K, GProp.setColors c .none q =
      (.ok (), { q with colorMap := name, numColors := 11 }) := by
    intro q
    unfold GProp.setColors
    rw [hc, Meth.lift_ok_bind, Meth.modify_bind, hn, Meth.lift_ok_bind, Meth.modify_apply]
    rfl
  unfold GProp.setContrast
  rw [Meth.bind_apply, setLimits_default]
  simp only
  rw [col]

/-- What `set_contrast_parameters()` leaves. -/
theorem setContrast_default (p : GProp K) :
    GProp.setContrast .none .none .none .none p = (.ok (), { p with
      vmin := nanmin p.data.data, vmax := nanmax p.data.data, colorMap := "viridis",
      numColors := 11 }) :=
  setContrast_color .none "viridis" (by simp [string, classObject, isinstance, bind, Except.bind]) p

theorem withDefaults_eq (p : GProp K) : p.withDefaults = .ok { p with
      vmin := nanmin p.data.data, vmax := nanmax p.data.data, colorMap := "viridis",
      numColors := 11 } := by
  unfold GProp.withDefaults
  rw [setContrast_default]

/-- **C33** With default arguments the limits are values of the data that bracket all its numbers;
both are `None` exactly if there is no number in the data. -/
theorem C33_contrast (p : GProp K) :
    ∃ p', GProp.setContrast .none .none .none .none p = (.ok (), p') ∧
      p'.data = p.data ∧ p'.mask = p.mask ∧
      (p'.vmin = none ↔ ∀ x ∈ p.data.data, x = .nan) ∧
      (p'.vmax = none ↔ ∀ x ∈ p.data.data, x = .nan) ∧
      (∀ lo, p'.vmin = some lo → lo ∈ p.data.data ∧ ∀ x ∈ p.data.data, x ≠ .nan → LessEq lo x) ∧
      (∀ hi, p'.vmax = some hi → hi ∈ p.data.data ∧ ∀ x ∈ p.data.data, x ≠ .nan → LessEq x hi) :=
  ⟨_, setContrast_default p, rfl, rfl, (nanmin_spec _).1, (nanmax_spec _).1,
    fun lo h => ⟨((nanmin_spec _).2 lo h).1, ((nanmin_spec _).2 lo h).2.2⟩,
    fun hi h => ⟨((nanmax_spec _).2 hi h).1, ((nanmax_spec _).2 hi h).2.2⟩⟩

example : (GProp.setContrast (K := ℚ) .none .none .none .none cube123).2.vmin = some (.fin 1) ∧
    (GProp.setContrast (K := ℚ) .none .none .none .none cube123).2.vmax = some (.fin 6) := by
  decide +kernel

/-! ## C32 -/

theorem array3_ok (v : PyVal K) (a : NpArr K) :
    array v (dtype := .str "float64") (numDimensions := .int 3) = .ok a ↔
      v = .arr a ∧ a.dtype = "float64" ∧ a.shape.length = 3 := by
  have := C03_array_ok_iff false v a none none (some (.int 3)) (some "float64") (by simp) (by simp)
    (by simp)
  simp only [optArg, Option.map_some] at this
  rw [this]
  constructor
  · rintro ⟨h, -, h2, h3⟩
    refine ⟨h, h3 _ rfl, ?_⟩
    obtain ⟨n, hn, h4⟩ := h2 _ rfl
    cases hn
    exact_mod_cast h4
  · rintro ⟨h, h1, h2⟩
    refine ⟨h, by simp, ?_, ?_⟩
    · rintro d hd
      cases hd
      exact ⟨3, .int 3, by rw [h2]; simp⟩
    · rintro d hd; cases hd; exact h1

/-- What the constructor makes. -/
theorem prop_new_ok_iff (name : PropName) (unit : PropUnit) (data : PyVal K) (g : GridParams K)
    (p : GProp K) :
    GProp.new name unit data g = .ok p ↔ ∃ a : NpArr K, data = .arr a ∧ a.dtype = "float64" ∧
      a.shape = [g.gridShape.1, g.gridShape.2.1, g.gridShape.2.2] ∧
      p = ⟨name, unit, g, ⟨a.shape, a.data⟩, none, nanmin a.data, nanmax a.data, "viridis", 11⟩ := by
  unfold GProp.new
  constructor
  · intro h
    cases h1 : array data (dtype := .str "float64") (numDimensions := .int 3) with
    | error e => rw [h1] at h; cases h
    | ok a =>
      obtain ⟨rfl, h2, h3⟩ := (array3_ok _ _).1 h1
      cases h4 : sameShapeArrays [PyVal.arr a, .arr ⟨"float64", GProp.shapeOf g, []⟩] 2 with
      | error e => rw [h1, h4] at h; cases h
      | ok u =>
        rw [h1, h4] at h
        simp only [bind, Except.bind, withDefaults_eq] at h
        cases h
        exact ⟨a, rfl, h2, (sameShape2_ok a _).1 h4, rfl⟩
  · rintro ⟨a, rfl, h1, h2, rfl⟩
    rw [(array3_ok _ a).2 ⟨rfl, h1, by rw [h2]; rfl⟩, (sameShape2_ok a _).2 h2]
    simp only [bind, Except.bind, withDefaults_eq]

/-- The files of a property. -/
structure Spec.HasProp (fs : FS K) (dir : Path) (p : GProp K) : Prop where
  data : fs.at? (dir ++ [GProp.fileName p.name p.unit ++ ".npy"]) =
    some (.file (.floats p.data.shape p.data.data))
  mask : fs.at? (dir ++ [GProp.fileName p.name p.unit ++ "_mask.npy"]) =
    p.mask.map fun m => .file (.bools m.shape m.data)
  params : HasGrid fs dir p.params

theorem load_hasProp {fs : FS K} {dir : Path} {p : GProp K} (h : HasProp fs dir p)
    (hg : Consistent p.params)
    (hs : p.data.shape = [p.params.gridShape.1, p.params.gridShape.2.1, p.params.gridShape.2.2]) :
    GProp.load fs dir p.name p.unit = .ok { p with
      vmin := nanmin p.data.data, vmax := nanmax p.data.data, colorMap := "viridis",
      numColors := 11 } := by
  have hnew := (prop_new_ok_iff p.name p.unit (.arr ⟨"float64", p.data.shape, p.data.data⟩) p.params
    _).2 ⟨_, rfl, rfl, hs, rfl⟩
  have hmask : ∀ q : GProp K, GProp.withMaskFile fs
      (dir ++ [GProp.fileName p.name p.unit ++ "_mask.npy"]) q =
      .ok { q with mask := match p.mask with | some m => some m | none => q.mask } := by
    intro q
    unfold GProp.withMaskFile FS.exists?
    have hm := h.mask
    cases hpm : p.mask with
    | none =>
      rw [hpm] at hm
      rw [hm]
      rfl
    | some m =>
      rw [hpm] at hm
      simp only [Option.map_some] at hm
      rw [hm]
      unfold GProp.loadMask
      rw [FS.load_eq_ok hm (by simp)]
      rfl
  have : GProp.loadBody fs dir p.name p.unit = .ok { p with
      vmin := nanmin p.data.data, vmax := nanmax p.data.data, colorMap := "viridis",
      numColors := 11 } := by
    unfold GProp.loadBody
    rw [loadNd_file h.data, load_hasGrid hg h.params]
    simp only [bind, Except.bind]
    rw [hnew]
    simp only
    rw [hmask]
    simp only
    rw [withDefaults_eq]
    cases p.mask <;> rfl
  unfold GProp.load
  rw [this]

theorem prop_no_rmtree (p : GProp K) (dir d : Path) : Step.rmtreeIfExists d ∉ p.saveSteps dir := by
  cases hm : p.mask <;> simp [GProp.saveSteps, hm, GridParams.saveSteps]

/-- The names of the property files differ from those of the grid files and from each other. -/
theorem fileName_ne (n : PropName) (u : PropUnit) :
    (∀ f ∈ ["dx.npy", "dy.npy", "rf.npy", "rf_array.npy", "position.npy", "mask_values.npy"],
      GProp.fileName n u ++ ".npy" ≠ f ∧ GProp.fileName n u ++ "_mask.npy" ≠ f) ∧
    ∀ n' u', GProp.fileName n u ++ ".npy" ≠ GProp.fileName n' u' ++ "_mask.npy" := by
  constructor
  · cases n <;> cases u <;> decide
  · intro n' u'
    cases n <;> cases u <;> cases n' <;> cases u' <;> decide

theorem params_write {g : GridParams K} {dir : Path} {f : String} {b : Blob K}
    (h : Step.write (dir ++ [f]) b ∈ g.saveSteps dir) :
    f ∈ ["dx.npy", "dy.npy", "rf.npy", "rf_array.npy"] := by
  simp only [GridParams.saveSteps, List.mem_cons, reduceCtorEq, Step.write.injEq,
    List.append_cancel_left_eq, List.cons.injEq, and_true, List.not_mem_nil, or_false, false_or] at h ⊢
  rcases h with h | h | h | h <;> simp [h.1]

theorem prop_save_files {fs fs' : FS K} {p : GProp K} {dir : Path}
    (h : fs.run (p.saveSteps dir) = (.ok (), fs')) :
    fs'.at? (dir ++ [GProp.fileName p.name p.unit ++ ".npy"]) =
      some (.file (.floats p.data.shape p.data.data)) ∧
    ((p.mask = none → fs.at? (dir ++ [GProp.fileName p.name p.unit ++ "_mask.npy"]) = none) →
      fs'.at? (dir ++ [GProp.fileName p.name p.unit ++ "_mask.npy"]) =
        p.mask.map fun m => .file (.bools m.shape m.data)) ∧
    HasGrid fs' dir p.params := by
  have nor : ∀ d, Step.rmtreeIfExists d ∉ p.params.saveSteps dir := saveSteps_no_rmtree _ _
  obtain ⟨n1, n2⟩ := fileName_ne p.name p.unit
  have now : ∀ b, Step.write (dir ++ [GProp.fileName p.name p.unit ++ ".npy"]) b ∉
      p.params.saveSteps dir := by
    intro b hb
    have := params_write hb
    exact (n1 _ (by simp at this ⊢; tauto)).1 rfl
  have now' : ∀ b, Step.write (dir ++ [GProp.fileName p.name p.unit ++ "_mask.npy"]) b ∉
      p.params.saveSteps dir := by
    intro b hb
    have := params_write hb
    exact (n1 _ (by simp at this ⊢; tauto)).2 rfl
  refine ⟨?_, ?_, ?_⟩
  · unfold GProp.saveSteps at h
    refine FS.run_written (ss := [.mkdirIfMissing dir]) (ts := _ ++ p.params.saveSteps dir)
      (by simpa using h) ?_ ?_
    · intro d hd
      rw [List.mem_append] at hd
      rcases hd with hd | hd
      · cases hm : p.mask <;> simp [hm] at hd
      · exact nor d hd
    · intro b hd
      rw [List.mem_append] at hd
      rcases hd with hd | hd
      · cases hm : p.mask with
        | none => simp [hm] at hd
        | some m =>
          simp only [hm, List.mem_singleton, Step.write.injEq, List.append_cancel_left_eq,
            List.cons.injEq, and_true] at hd
          exact n2 _ _ hd.1
      · exact now b hd
  · intro hstale
    cases hm : p.mask with
    | none =>
      have e : (fs.run (p.saveSteps dir)).2 = fs' := by rw [h]
      rw [← e, FS.run_frame _ _ (prop_no_rmtree p dir)]
      · simpa using hstale hm
      · intro b hb
        simp only [GProp.saveSteps, hm, List.append_nil, List.mem_append, List.mem_cons, reduceCtorEq,
          Step.write.injEq, List.append_cancel_left_eq, List.cons.injEq, and_true, List.not_mem_nil,
          or_false, false_or] at hb
        rcases hb with hb | hb
        · exact n2 _ _ hb.1.symm
        · exact now' b hb
      · simp [GProp.saveSteps, hm, GridParams.saveSteps]
      · simp [GProp.saveSteps, hm, GridParams.saveSteps]
    | some m =>
      unfold GProp.saveSteps at h
      rw [hm] at h
      exact FS.run_written (ss := [.mkdirIfMissing dir, .write _ _]) (ts := p.params.saveSteps dir)
        (by simpa using h) nor now'
  · unfold GProp.saveSteps at h
    obtain ⟨f, -, h'⟩ := FS.run_append_ok h
    exact save_hasGrid h'

theorem prop_save_hasProp {fs fs' : FS K} {p : GProp K} {dir : Path}
    (h : fs.run (p.saveSteps dir) = (.ok (), fs'))
    (hstale : p.mask = none → fs.at? (dir ++ [GProp.fileName p.name p.unit ++ "_mask.npy"]) = none) :
    HasProp fs' dir p :=
  ⟨(prop_save_files h).1, (prop_save_files h).2.1 hstale, (prop_save_files h).2.2⟩

/-- **C32 (partial)** After a save, loading the same property from that directory gives back name,
unit, data, mask and grid; the contrast settings are the defaults.  Hypotheses: the grid and the
shape are consistent (as the constructor leaves them) and, if the property has no mask, there is no
older mask file.  Missing for the full claim: the stale mask file, for which it is false
(`C32_false`). -/
theorem C32_round_trip_partial (fs fs' : FS K) (p : GProp K) (dir : Path)
    (hg : Consistent p.params)
    (hs : p.data.shape = [p.params.gridShape.1, p.params.gridShape.2.1, p.params.gridShape.2.2])
    (hstale : p.mask = none → fs.at? (dir ++ [GProp.fileName p.name p.unit ++ "_mask.npy"]) = none)
    (h : fs.run (p.saveSteps dir) = (.ok (), fs')) :
    ∃ q, GProp.load fs' dir p.name p.unit = .ok q ∧ q.name = p.name ∧ q.unit = p.unit ∧
      q.data = p.data ∧ q.mask = p.mask ∧ q.params = p.params :=
  ⟨_, load_hasProp (prop_save_hasProp h hstale) hg hs, rfl, rfl, rfl, rfl, rfl⟩

/-- **C32** A property fresh from the constructor is loaded back identical. -/
theorem C32_constructed (fs fs' : FS K) (name : PropName) (unit : PropUnit) (data : PyVal K)
    (g : GridParams K) (hg : Consistent g) (p : GProp K) (hp : GProp.new name unit data g = .ok p)
    (dir : Path) (hstale : fs.at? (dir ++ [GProp.fileName name unit ++ "_mask.npy"]) = none)
    (h : fs.run (p.saveSteps dir) = (.ok (), fs')) : GProp.load fs' dir name unit = .ok p := by
  obtain ⟨a, -, h1, h2, hp'⟩ := (prop_new_ok_iff _ _ _ _ _).1 hp
  have e1 : p.name = name := by rw [hp']
  have e2 : p.unit = unit := by rw [hp']
  have e3 : p.params = g := by rw [hp']
  have e4 : p.data = ⟨a.shape, a.data⟩ := by rw [hp']
  have := load_hasProp (prop_save_hasProp h (by rw [e1, e2]; exact fun _ => hstale))
    (by rw [e3]; exact hg) (by rw [e3, e4]; exact h2)
  rw [e1, e2] at this
  rw [this, hp']

/-- **C32 is false** if an older save of that property had a mask: the mask comes back. -/
theorem C32_false : ∃ (fs fs' : FS ℚ) (q : GProp ℚ),
    FS.run [] (GProp.saveSteps { cube123 with
      mask := some ⟨[1, 2, 3], [true, false, false, false, false, false]⟩ } ["d"]) = (.ok (), fs) ∧
    fs.run (cube123.saveSteps ["d"]) = (.ok (), fs') ∧
    GProp.load fs' ["d"] .tilt .degree = .ok q ∧
    q.mask = some ⟨[1, 2, 3], [true, false, false, false, false, false]⟩ ∧ cube123.mask = none := by
  refine ⟨(FS.run [] (GProp.saveSteps { cube123 with
      mask := some ⟨[1, 2, 3], [true, false, false, false, false, false]⟩ } ["d"])).2,
    ((FS.run [] (GProp.saveSteps { cube123 with
      mask := some ⟨[1, 2, 3], [true, false, false, false, false, false]⟩ } ["d"])).2.run
      (cube123.saveSteps ["d"])).2,
    { cube123 with mask := some ⟨[1, 2, 3], [true, false, false, false, false, false]⟩ }, ?_⟩
  decide +kernel

/-- **C32** A stale mask of another grid size is loaded as well; every masked read then raises. -/
theorem C32_false_shape :
    let old : GProp ℚ := { cube123 with data := ⟨[1, 1, 1], [.fin 1]⟩, mask := some ⟨[1, 1, 1], [true]⟩ }
    let fs := (FS.run [] (old.saveSteps ["d"] ++ cube123.saveSteps ["d"])).2
    (GProp.load fs ["d"] .tilt .degree).toOption.map (fun q => (GProp.getData (.bool true) q).1) =
      some (.error .indexError) := by
  decide +kernel

end Beyonce
