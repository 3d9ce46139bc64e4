import Verif.Props.Complete
import Verif.Props.GridGradient

/-!
# Invariants of methods; the shapes in a grid
-/

set_option linter.unusedSectionVars false

namespace Beyonce
open Spec

/-! ## Relations that methods keep -/

/-- A method changes the state only along the relation, whether it raises or not. -/
def Moves {S α : Type} (R : S → S → Prop) (m : Meth S α) : Prop := ∀ s, R s (m s).2

/-- A preorder on states. -/
structure Pre {S : Type} (R : S → S → Prop) : Prop where
  refl : ∀ s, R s s
  trans : ∀ {a b c}, R a b → R b c → R a c

section
variable {S α β : Type} {R : S → S → Prop}

theorem Moves.pure (h : Pre R) (a : α) : Moves R (pure a : Meth S α) := fun s => h.refl s
theorem Moves.lift (h : Pre R) (e : Except Err α) : Moves R (Meth.lift e : Meth S α) :=
  fun s => h.refl s
theorem Moves.throw (h : Pre R) (e : Err) : Moves R (Meth.throw e : Meth S α) := fun s => h.refl s
theorem Moves.get (h : Pre R) : Moves R (Meth.get : Meth S S) := fun s => h.refl s
theorem Moves.modify {f : S → S} (h : ∀ s, R s (f s)) : Moves R (Meth.modify f : Meth S Unit) := h

theorem Moves.bind (h : Pre R) {m : Meth S α} {f : α → Meth S β} (hm : Moves R m)
    (hf : ∀ a, Moves R (f a)) : Moves R (m >>= f) := by
  intro s
  rw [Meth.bind_apply]
  have h1 := hm s
  generalize m s = p at h1
  obtain ⟨e | a, s'⟩ := p
  · exact h1
  · exact h.trans h1 (hf a s')

theorem Moves.get_bind {f : S → Meth S β} (hf : ∀ s, R s (f s s).2) :
    Moves R (Meth.get >>= f) := hf

end

/-- An invariant as a relation. -/
def Inv {S : Type} (P : S → Prop) : S → S → Prop := fun s s' => P s → P s'

theorem Inv.pre {S : Type} (P : S → Prop) : Pre (Inv P) :=
  ⟨fun _ h => h, fun h1 h2 h => h2 (h1 h)⟩

/-- Two relations at once. -/
theorem Pre.and {S : Type} {R Q : S → S → Prop} (hR : Pre R) (hQ : Pre Q) :
    Pre (fun s s' => R s s' ∧ Q s s') :=
  ⟨fun s => ⟨hR.refl s, hQ.refl s⟩, fun h1 h2 => ⟨hR.trans h1.1 h2.1, hQ.trans h1.2 h2.2⟩⟩

section
variable {K : Type} [Field K] [LinearOrder K] [IsStrictOrderedRing K]

/-! ## Shapes -/

/-- Data and mask of a property are arrays of this shape. -/
structure Spec.InShape (a b c : ℕ) (p : GProp K) : Prop where
  data : p.data.Cubic a b c
  mask : ∀ m, p.mask = some m → m.shape = [a, b, c] ∧ m.data.length = a * b * c

/-- All arrays of the grid have the shape of the grid. -/
structure Spec.Sound (s : Shallot K) : Prop where
  shaped : ShapedGrid s.params
  props : ∀ c p, s.prop c = some p →
    InShape s.params.gridShape.1 s.params.gridShape.2.1 s.params.gridShape.2.2 p
  gradients : ∀ l, s.gradients = some l → ∀ g ∈ l,
    InShape s.params.gridShape.1 s.params.gridShape.2.1 s.params.gridShape.2.2 g.prop

/-- A method of a property that keeps the shapes. -/
def ShapeKeeping {α : Type} (m : Meth (GProp K) α) : Prop :=
  ∀ a b c p, InShape a b c p → InShape a b c (m p).2

theorem setProp_params (s : Shallot K) (p : GProp K) (c : Cube) : (s.setProp p c).params = s.params := by
  cases c <;> rfl

theorem setProp_gradients (s : Shallot K) (p : GProp K) (c : Cube) :
    (s.setProp p c).gradients = s.gradients := by cases c <;> rfl

theorem setProp_prop (s : Shallot K) (p : GProp K) (c c' : Cube) :
    (s.setProp p c).prop c' = if c' = c then some p else s.prop c' := by
  cases c <;> cases c' <;> rfl

theorem sound_setProp {s : Shallot K} (hs : Sound s) (c : Cube) (p : GProp K)
    (hp : InShape s.params.gridShape.1 s.params.gridShape.2.1 s.params.gridShape.2.2 p) :
    Sound (s.setProp p c) := by
  refine ⟨by rw [setProp_params]; exact hs.shaped, ?_, ?_⟩
  · intro c' p' h
    rw [setProp_params]
    rw [setProp_prop] at h
    split_ifs at h with hc
    · cases h; exact hp
    · exact hs.props c' p' h
  · rw [setProp_params, setProp_gradients]
    exact hs.gradients

theorem onProp_sound {α : Type} (c : Cube) (m : Meth (GProp K) α) (hm : ShapeKeeping m) :
    Moves (Inv Sound) (Shallot.onProp c m) := by
  intro s hs
  unfold Shallot.onProp
  cases h : s.prop c with
  | none => exact hs
  | some p => exact sound_setProp hs c _ (hm _ _ _ p (hs.props c p h))

theorem onGradient_sound {α : Type} (k : ℕ) (m : Meth (GGrad K) α)
    (hm : ∀ a b c g, InShape a b c g.prop → InShape a b c (m g).2.prop) :
    Moves (Inv Sound) (Shallot.onGradient k m) := by
  intro s hs
  unfold Shallot.onGradient
  cases h : (s.gradients.getD [])[k]? with
  | none => exact hs
  | some g =>
    refine ⟨hs.shaped, hs.props, ?_⟩
    intro l hl g' hg'
    simp only [Option.some.injEq] at hl
    subst hl
    have hin : ∀ x ∈ s.gradients.getD [],
        InShape s.params.gridShape.1 s.params.gridShape.2.1 s.params.gridShape.2.2 x.prop := by
      intro x hx
      cases hgr : s.gradients with
      | none => rw [hgr] at hx; cases hx
      | some l => rw [hgr] at hx; exact hs.gradients l hgr x hx
    rcases List.mem_or_eq_of_mem_set hg' with h' | rfl
    · exact hin _ h'
    · exact hm _ _ _ g (hin g (List.mem_of_getElem? h))

theorem inShape_of {a b c : ℕ} {p q : GProp K} (h : InShape a b c p) (hs : q.data.shape = p.data.shape)
    (hl : q.data.data.length = p.data.data.length) (hm : q.mask = p.mask) : InShape a b c q :=
  ⟨⟨hs.trans h.data.1, hl.trans h.data.2⟩, by rw [hm]; exact h.mask⟩

theorem getData_shape (v : PyVal K) : ShapeKeeping (GProp.getData v) := by
  intro a b c p hp
  rcases getData_cases v p with ⟨m, -, -, -, h⟩ | h
  · rw [h]; exact inShape_of hp rfl (putWhere_length _ _ _) rfl
  · rw [h]; exact hp

theorem nanWhere_shape (m : Mask) : ShapeKeeping (Shallot.nanWhere (K := K) m) := by
  intro a b c p hp
  unfold Shallot.nanWhere
  rw [Meth.get_bind]
  split_ifs
  · exact inShape_of hp rfl (putWhere_length _ _ _) rfl
  · exact hp

theorem setMask_shape (f : XF K → XF K) (d : Nd K) (a b c : ℕ) (hd : d.Cubic a b c) (p : GProp K)
    (hp : InShape a b c p) :
    InShape a b c (GProp.setMask (.arr ⟨"bool", d.shape, d.data.map f⟩) p).2 := by
  rcases setMask_cases (.arr ⟨"bool", d.shape, d.data.map f⟩) p with ⟨a', h1, -, -, h⟩ | ⟨⟨e, h⟩, -⟩
  · rw [h]
    obtain rfl : _ = a' := by simpa using h1
    refine ⟨hp.data, ?_⟩
    intro m hm
    simp only [Option.some.injEq] at hm
    subst hm
    exact ⟨hd.1, by simp [NpArr.toMask, hd.2]⟩
  · rw [h]; exact hp

theorem determineMask_shape (vm vo vt ve : PyVal K) (a b c : ℕ) (g : GGrad K)
    (hg : InShape a b c g.prop) :
    InShape a b c (GGrad.determineMask vm vo vt ve g).2.prop := by
  rcases determineMask_cases vm vo vt ve g with ⟨-, e, h⟩ | ⟨-, -, e, h⟩ | ⟨-, -, -, e, h⟩ |
    ⟨-, -, -, -, e, h⟩ | ⟨-, -, -, -, ⟨e, -, h⟩ | ⟨q, -, ⟨-, h⟩ | ⟨-, h⟩⟩⟩
  · rw [h]; exact hg
  · rw [h]; exact hg
  · rw [h]; exact hg
  · rw [h]; exact hg
  · rw [h]; exact hg
  · rw [h]; exact hg
  · rw [h]
    refine ⟨hg.data, ?_⟩
    intro m hm
    simp only [Option.some.injEq] at hm
    subst hm
    exact ⟨hg.data.1, by simp [hg.data.2]⟩

/-! ## C38: the combined mask -/

theorem addMasks_ok (shape : List ℕ) : ∀ (ms : List (Option Mask)) (counts : List ℕ),
    (∀ m, some m ∈ ms → m.shape = shape ∧ m.data.length = counts.length) →
    ∃ out, Shallot.addMasks shape ms counts = .ok out ∧ out.length = counts.length ∧
      ∀ (i n : ℕ), counts[i]? = some n → ∃ k : ℕ, out[i]? = some k ∧
        (k ≠ 0 ↔ n ≠ 0 ∨ ∃ m, some m ∈ ms ∧ m.data[i]? = some true)
  | [], counts, _ => ⟨counts, rfl, rfl, fun i n h => ⟨n, h, by simp⟩⟩
  | none :: ms, counts, h => by
    obtain ⟨out, h1, h2, h3⟩ := addMasks_ok shape ms counts (fun m hm => h m (by simp [hm]))
    refine ⟨out, h1, h2, fun i n hn => ?_⟩
    obtain ⟨k, hk, hk'⟩ := h3 i n hn
    exact ⟨k, hk, by rw [hk']; simp⟩
  | some m :: ms, counts, h => by
    obtain ⟨hs, hl⟩ := h m (by simp)
    have hlen : (List.zipWith (fun n b => n + if b = true then 1 else 0) counts m.data).length =
        counts.length := by simp [hl]
    obtain ⟨out, h1, h2, h3⟩ := addMasks_ok shape ms
      (List.zipWith (fun n b => n + if b = true then 1 else 0) counts m.data)
      (fun m' hm' => by rw [hlen]; exact h m' (by simp [hm']))
    refine ⟨out, ?_, by rw [h2, hlen], fun i n hn => ?_⟩
    · unfold Shallot.addMasks Shallot.addMask
      rw [if_pos hs, ok_bind]
      exact h1
    · have hi : i < counts.length := (List.getElem?_eq_some_iff.1 hn).1
      obtain ⟨b, hb⟩ : ∃ b, m.data[i]? = some b :=
        ⟨_, List.getElem?_eq_getElem (by rw [hl]; exact hi)⟩
      obtain ⟨k, hk, hk'⟩ := h3 i (n + if b = true then 1 else 0) (by
        rw [List.getElem?_zipWith, hn, hb])
      refine ⟨k, hk, ?_⟩
      rw [hk']
      cases b with
      | true =>
        simp only [if_true]
        constructor
        · intro _; exact Or.inr ⟨m, by simp, hb⟩
        · intro _; left; omega
      | false =>
        simp only [Bool.false_eq_true, if_false, Nat.add_zero]
        constructor
        · rintro (h | ⟨m', h, h'⟩)
          · exact Or.inl h
          · exact Or.inr ⟨m', by simp [h], h'⟩
        · rintro (h | ⟨m', h, h'⟩)
          · exact Or.inl h
          · rcases List.mem_cons.1 h with h | h
            · cases h
              rw [hb] at h'
              cases h'
            · exact Or.inr ⟨m', h, h'⟩

/-- Element `i` is masked somewhere in the grid. -/
def Spec.MaskedAt (s : Shallot K) (i : ℕ) : Prop :=
  Marked s.diskRadius.mask i ∨ Marked s.inclination.mask i ∨ Marked s.tilt.mask i ∨
    ∃ l, s.gradients = some l ∧ ∃ g ∈ l, Marked g.prop.mask i

theorem mem_allMasks (s : Shallot K) (m : Mask) : some m ∈ s.allMasks ↔
    s.diskRadius.mask = some m ∨ s.inclination.mask = some m ∨ s.tilt.mask = some m ∨
    ∃ l, s.gradients = some l ∧ ∃ g ∈ l, g.prop.mask = some m := by
  unfold Shallot.allMasks
  cases h : s.gradients with
  | none => simp [eq_comm]
  | some l => simp [eq_comm]

/-- **C38** `get_combined_mask` succeeds and is true exactly at the elements that the mask of the
disk radius, of the inclination, of the tilt or of one of the gradients marks. -/
theorem C38_union (s : Shallot K) (hs : Sound s) :
    ∃ m, s.combinedMask = .ok m ∧
      m.shape = [s.params.gridShape.1, s.params.gridShape.2.1, s.params.gridShape.2.2] ∧
      m.data.length = s.params.gridShape.1 * s.params.gridShape.2.1 * s.params.gridShape.2.2 ∧
      ∀ i, m.data[i]? = some true ↔ MaskedAt s i := by
  obtain ⟨⟨a, b, c⟩, hg⟩ : ∃ g, g = s.params.gridShape := ⟨_, rfl⟩
  have hall : ∀ m, some m ∈ s.allMasks → m.shape = [a, b, c] ∧ m.data.length = a * b * c := by
    intro m hm
    have hp := hs.props
    have hgr := hs.gradients
    rw [← hg] at hp hgr
    rcases (mem_allMasks s m).1 hm with h | h | h | ⟨l, hl, g, hgl, h⟩
    · exact (hp .diskRadius _ rfl).mask m h
    · exact (hp .inclination _ rfl).mask m h
    · exact (hp .tilt _ rfl).mask m h
    · exact (hgr l hl g hgl).mask m h
  obtain ⟨out, h1, h2, h3⟩ := addMasks_ok [a, b, c] s.allMasks (List.replicate (a * b * c) 0)
    (by intro m hm; rw [List.length_replicate]; exact hall m hm)
  rw [List.length_replicate] at h2
  refine ⟨⟨[a, b, c], out.map fun n => decide (n ≠ 0)⟩, ?_, ?_, ?_, ?_⟩
  · unfold Shallot.combinedMask
    rw [← hg]
    simp only
    rw [h1, ok_bind]
  · rw [← hg]
  · rw [← hg]; simp [h2]
  · intro i
    have hmark : MaskedAt s i ↔ ∃ m, some m ∈ s.allMasks ∧ m.data[i]? = some true := by
      unfold MaskedAt Marked
      constructor
      · rintro (⟨k, h, h'⟩ | ⟨k, h, h'⟩ | ⟨k, h, h'⟩ | ⟨l, hl, g, hgl, k, h, h'⟩)
        · exact ⟨k, (mem_allMasks s k).2 (Or.inl h), h'⟩
        · exact ⟨k, (mem_allMasks s k).2 (Or.inr (Or.inl h)), h'⟩
        · exact ⟨k, (mem_allMasks s k).2 (Or.inr (Or.inr (Or.inl h))), h'⟩
        · exact ⟨k, (mem_allMasks s k).2 (Or.inr (Or.inr (Or.inr ⟨l, hl, g, hgl, h⟩))), h'⟩
      · rintro ⟨k, h, h'⟩
        rcases (mem_allMasks s k).1 h with h | h | h | ⟨l, hl, g, hgl, h⟩
        · exact Or.inl ⟨k, h, h'⟩
        · exact Or.inr (Or.inl ⟨k, h, h'⟩)
        · exact Or.inr (Or.inr (Or.inl ⟨k, h, h'⟩))
        · exact Or.inr (Or.inr (Or.inr ⟨l, hl, g, hgl, k, h, h'⟩))
    rw [hmark]
    by_cases hi : i < a * b * c
    · obtain ⟨k, hk, hk'⟩ := h3 i 0 (by rw [List.getElem?_replicate, if_pos hi])
      rw [List.getElem?_map, hk]
      simp only [Option.map_some, Option.some.injEq, decide_eq_true_eq]
      rw [hk']
      simp
    · constructor
      · intro h
        have := (List.getElem?_eq_some_iff.1 h).1
        simp only [List.length_map] at this
        omega
      · rintro ⟨m, hm, h⟩
        have := (List.getElem?_eq_some_iff.1 h).1
        have := (hall m hm).2
        omega

end
end Beyonce
