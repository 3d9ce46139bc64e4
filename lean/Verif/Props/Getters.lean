import Verif.Props.Sound

/-!
# Properties C43, C44: what reading does to a grid, and the Hill radius mask
-/

set_option linter.unusedSectionVars false

namespace Beyonce
open Spec

section
variable {K : Type} [Field K] [LinearOrder K] [IsStrictOrderedRing K]

/-! ## Reading fades elements -/

/-- `p'` is `p` but for elements in `M` that have become NaN. -/
structure Spec.FadedProp (M : ℕ → Prop) (p p' : GProp K) : Prop where
  rest : p' = { p with data := p'.data }
  shape : p'.data.shape = p.data.shape
  length : p'.data.data.length = p.data.data.length
  values : ∀ i, p'.data.data[i]? = p.data.data[i]? ∨ (p'.data.data[i]? = some XF.nan ∧ M i)

/-- `s'` is `s` but for elements of the cubes that have become NaN: under the mask of the cube itself
or under the combined mask. -/
structure Spec.Faded (s s' : Shallot K) : Prop where
  rest : s' = { s with
    diskRadius := s'.diskRadius, inclination := s'.inclination, tilt := s'.tilt, fxMap := s'.fxMap
    fyMap := s'.fyMap, diagnosticMap := s'.diagnosticMap, gradients := s'.gradients
    gradientFit := s'.gradientFit }
  props : ∀ c, (s.prop c = none ∧ s'.prop c = none) ∨ ∃ p p', s.prop c = some p ∧
    s'.prop c = some p' ∧ FadedProp (fun i => Marked p.mask i ∨ MaskedAt s i) p p'
  gradients : (s.gradients = none ∧ s'.gradients = none) ∨ ∃ l l', s.gradients = some l ∧
    s'.gradients = some l' ∧ List.Forall₂ (fun g g' => g' = { g with prop := g'.prop } ∧
      FadedProp (Marked g.prop.mask) g.prop g'.prop) l l'

theorem Spec.FadedProp.refl {M : ℕ → Prop} (p : GProp K) : FadedProp M p p :=
  ⟨rfl, rfl, rfl, fun _ => Or.inl rfl⟩

theorem Spec.FadedProp.mask {M : ℕ → Prop} {p p' : GProp K} (h : FadedProp M p p') : p'.mask = p.mask := by
  rw [h.rest]

theorem Spec.FadedProp.trans {M N : ℕ → Prop} {p q r : GProp K} (h : FadedProp M p q)
    (h' : FadedProp N q r) (hN : ∀ i, N i → M i) : FadedProp M p r := by
  refine ⟨?_, h'.shape.trans h.shape, h'.length.trans h.length, fun i => ?_⟩
  · have := h'.rest
    rw [h.rest] at this
    exact this
  · rcases h'.values i with h1 | ⟨h1, h2⟩
    · rw [h1]; exact h.values i
    · exact Or.inr ⟨h1, hN i h2⟩

theorem Spec.Faded.refl (s : Shallot K) : Faded s s := by
  refine ⟨rfl, ?_, ?_⟩
  · intro c
    cases h : s.prop c with
    | none => exact Or.inl ⟨rfl, rfl⟩
    | some p => exact Or.inr ⟨p, p, rfl, rfl, .refl p⟩
  · cases h : s.gradients with
    | none => exact Or.inl ⟨rfl, rfl⟩
    | some l => exact Or.inr ⟨l, l, rfl, rfl, List.forall₂_same.2 fun g _ => ⟨rfl, .refl _⟩⟩

theorem Spec.Faded.prop_mask {s s' : Shallot K} (h : Faded s s') (c : Cube) :
    (s'.prop c).map (·.mask) = (s.prop c).map (·.mask) := by
  rcases h.props c with ⟨h1, h2⟩ | ⟨p, p', h1, h2, h3⟩
  · rw [h1, h2]
  · rw [h1, h2]; simp [h3.mask]

theorem forall₂_masks {l l' : List (GGrad K)} (h : List.Forall₂ (fun g g' => g' = { g with
    prop := g'.prop } ∧ FadedProp (Marked g.prop.mask) g.prop g'.prop) l l') :
    l'.map (fun g => g.prop.mask) = l.map (fun g => g.prop.mask) := by
  induction h with
  | nil => rfl
  | cons h _ ih => simp [ih, h.2.mask]

/-- Reading changes no mask. -/
theorem Spec.Faded.masks {s s' : Shallot K} (h : Faded s s') : s'.allMasks = s.allMasks := by
  have h1 : s'.diskRadius.mask = s.diskRadius.mask := Option.some.inj (h.prop_mask .diskRadius)
  have h2 : s'.inclination.mask = s.inclination.mask := Option.some.inj (h.prop_mask .inclination)
  have h3 : s'.tilt.mask = s.tilt.mask := Option.some.inj (h.prop_mask .tilt)
  unfold Shallot.allMasks
  rw [h1, h2, h3]
  rcases h.gradients with ⟨g1, g2⟩ | ⟨l, l', g1, g2, g3⟩
  · rw [g1, g2]
  · rw [g1, g2]; simp only [forall₂_masks g3]

theorem maskedAt_iff (s : Shallot K) (i : ℕ) :
    MaskedAt s i ↔ ∃ m, some m ∈ s.allMasks ∧ m.data[i]? = some true := by
  unfold MaskedAt Marked
  constructor
  · rintro (⟨k, h, h'⟩ | ⟨k, h, h'⟩ | ⟨k, h, h'⟩ | ⟨l, hl, g, hgl, k, h, h'⟩)
    · exact ⟨k, (mem_allMasks s k).2 (Or.inl h), h'⟩
    · exact ⟨k, (mem_allMasks s k).2 (Or.inr (Or.inl h)), h'⟩
    · exact ⟨k, (mem_allMasks s k).2 (Or.inr (Or.inr (Or.inl h))), h'⟩
    · exact ⟨k, (mem_allMasks s k).2 (Or.inr (Or.inr (Or.inr ⟨l, hl, g, hgl, h⟩))), h'⟩
  · rintro ⟨k, h, h'⟩
    rcases (mem_allMasks s k).1 h with h | h | h | ⟨l, hl, g, hgl, h⟩
    · exact Or.inl ⟨k, h, h'⟩
    · exact Or.inr (Or.inl ⟨k, h, h'⟩)
    · exact Or.inr (Or.inr (Or.inl ⟨k, h, h'⟩))
    · exact Or.inr (Or.inr (Or.inr ⟨l, hl, g, hgl, k, h, h'⟩))

theorem Spec.Faded.maskedAt {s s' : Shallot K} (h : Faded s s') (i : ℕ) : MaskedAt s' i ↔ MaskedAt s i := by
  rw [maskedAt_iff, maskedAt_iff, h.masks]

theorem Spec.Faded.trans {s t u : Shallot K} (h : Faded s t) (h' : Faded t u) : Faded s u := by
  refine ⟨?_, ?_, ?_⟩
  · have := h'.rest
    rw [h.rest] at this
    exact this
  · intro c
    rcases h.props c with ⟨h1, h2⟩ | ⟨p, p', h1, h2, h3⟩ <;>
      rcases h'.props c with ⟨h4, h5⟩ | ⟨q, q', h4, h5, h6⟩
    · exact Or.inl ⟨h1, h5⟩
    · rw [h2] at h4; cases h4
    · rw [h2] at h4; cases h4
    · rw [h2] at h4
      cases h4
      refine Or.inr ⟨p, q', h1, h5, h3.trans h6 ?_⟩
      intro i hi
      rw [h3.mask, h.maskedAt] at hi
      exact hi
  · rcases h.gradients with ⟨h1, h2⟩ | ⟨l, l', h1, h2, h3⟩ <;>
      rcases h'.gradients with ⟨h4, h5⟩ | ⟨m, m', h4, h5, h6⟩
    · exact Or.inl ⟨h1, h5⟩
    · rw [h2] at h4; cases h4
    · rw [h2] at h4; cases h4
    · rw [h2] at h4
      cases h4
      refine Or.inr ⟨l, m', h1, h5, ?_⟩
      clear h1 h2 h5
      induction h3 generalizing m' with
      | nil => cases h6; exact .nil
      | cons a _ ih =>
        cases h6 with
        | cons b c =>
          refine .cons ⟨?_, a.2.trans b.2 ?_⟩ (ih _ c)
          · have := b.1
            rw [a.1] at this
            exact this
          · intro i hi
            rwa [a.2.mask] at hi

theorem Spec.Faded.pre : Pre (Faded (K := K)) := ⟨Faded.refl, Faded.trans⟩

/-- A change of one cube. -/
theorem faded_setProp {s : Shallot K} {c : Cube} {p p' : GProp K} (hp : s.prop c = some p)
    (h : FadedProp (fun i => Marked p.mask i ∨ MaskedAt s i) p p') : Faded s (s.setProp p' c) := by
  refine ⟨by cases c <;> rfl, ?_, ?_⟩
  · intro c'
    rw [setProp_prop]
    by_cases hc : c' = c
    · subst hc
      rw [if_pos rfl]
      exact Or.inr ⟨p, p', hp, rfl, h⟩
    · rw [if_neg hc]
      exact (Faded.refl s).props c'
  · rw [setProp_gradients]
    exact (Faded.refl s).gradients

theorem putWhere_faded (M : ℕ → Prop) (p : GProp K) (m : Mask)
    (h : ∀ i, m.data[i]? = some true → M i) :
    FadedProp M p { p with data := p.data.putNan m } := by
  refine ⟨rfl, rfl, putWhere_length _ _ _, fun i => ?_⟩
  obtain ⟨h1, h2⟩ := putWhere_get XF.nan m.data p.data.data i
  by_cases hm : m.data[i]? = some true
  · by_cases hi : i < p.data.data.length
    · exact Or.inr ⟨h1 hm hi, h i hm⟩
    · left
      show (putWhere XF.nan m.data p.data.data)[i]? = _
      rw [List.getElem?_eq_none (by rw [putWhere_length]; omega),
        List.getElem?_eq_none (by omega)]
  · exact Or.inl (h2 hm)

theorem getData_faded (v : PyVal K) (p : GProp K) :
    FadedProp (Marked p.mask) p (GProp.getData v p).2 := by
  rcases getData_cases v p with ⟨m, -, hm, -, h⟩ | h
  · rw [h]
    exact putWhere_faded _ p m fun i hi => ⟨m, hm, hi⟩
  · rw [h]; exact .refl p

theorem addMasks_some (shape : List ℕ) : ∀ (ms : List (Option Mask)) (counts out : List ℕ) (i k : ℕ),
    Shallot.addMasks shape ms counts = .ok out → out[i]? = some k → k ≠ 0 →
    (∃ n, counts[i]? = some n ∧ n ≠ 0) ∨ ∃ m, some m ∈ ms ∧ m.data[i]? = some true
  | [], counts, out, i, k, h, hk, h0 => by cases h; exact Or.inl ⟨k, hk, h0⟩
  | none :: ms, counts, out, i, k, h, hk, h0 => by
    rcases addMasks_some shape ms counts out i k h hk h0 with h | ⟨m, h, h'⟩
    · exact Or.inl h
    · exact Or.inr ⟨m, by simp [h], h'⟩
  | some m :: ms, counts, out, i, k, h, hk, h0 => by
    unfold Shallot.addMasks Shallot.addMask at h
    by_cases hs : m.shape = shape
    · rw [if_pos hs, ok_bind] at h
      rcases addMasks_some shape ms _ out i k h hk h0 with ⟨n, hn, hn'⟩ | ⟨m', h, h'⟩
      · rw [List.getElem?_zipWith] at hn
        cases hc : counts[i]? with
        | none => rw [hc] at hn; cases hn
        | some n' =>
          cases hb : m.data[i]? with
          | none => rw [hc, hb] at hn; cases hn
          | some b =>
            rw [hc, hb] at hn
            cases b with
            | true => exact Or.inr ⟨m, by simp, hb⟩
            | false =>
              left
              refine ⟨n', rfl, ?_⟩
              simp only [Bool.false_eq_true, if_false, Nat.add_zero, Option.some.injEq] at hn
              omega
      · exact Or.inr ⟨m', by simp [h], h'⟩
    · rw [if_neg hs, error_bind] at h
      cases h

theorem combinedMask_some {s : Shallot K} {m : Mask} (h : s.combinedMask = .ok m) (i : ℕ)
    (hi : m.data[i]? = some true) : MaskedAt s i := by
  unfold Shallot.combinedMask at h
  obtain ⟨⟨a, b, c⟩, hg⟩ : ∃ g, g = s.params.gridShape := ⟨_, rfl⟩
  simp only [← hg] at h
  cases h1 : Shallot.addMasks [a, b, c] s.allMasks (List.replicate (a * b * c) 0) with
  | error e => rw [h1, error_bind] at h; cases h
  | ok out =>
    rw [h1, ok_bind] at h
    cases h
    rw [List.getElem?_map] at hi
    cases ho : out[i]? with
    | none => rw [ho] at hi; cases hi
    | some k =>
      rw [ho] at hi
      simp only [Option.map_some, Option.some.injEq, decide_eq_true_eq] at hi
      rcases addMasks_some _ _ _ _ i k h1 ho hi with ⟨n, h2, h3⟩ | h2
      · rw [List.getElem?_replicate] at h2
        split_ifs at h2
        cases h2
        exact absurd rfl h3
      · exact (maskedAt_iff s i).2 h2

local notation "FP" => (Faded.pre (K := K))

theorem onProp_getData_faded (c : Cube) (v : PyVal K) :
    Moves Faded (Shallot.onProp c (GProp.getData v)) := by
  intro s
  unfold Shallot.onProp
  cases h : s.prop c with
  | none => exact .refl s
  | some p =>
    refine faded_setProp h ?_
    have := getData_faded v p
    exact ⟨this.rest, this.shape, this.length, fun i => (this.values i).imp_right fun h => ⟨h.1, .inl h.2⟩⟩

theorem nanWhere_faded (m : Mask) (M : ℕ → Prop) (p : GProp K) (h : ∀ i, m.data[i]? = some true → M i) :
    FadedProp M p (Shallot.nanWhere m p).2 := by
  unfold Shallot.nanWhere
  rw [Meth.get_bind]
  by_cases hs : m.shape = p.data.shape
  · rw [if_pos hs]; exact putWhere_faded M p m h
  · rw [if_neg hs]; exact .refl p

theorem getCube_faded (c : Cube) (v w : PyVal K) : Moves Faded (Shallot.getCube c v w) := by
  unfold Shallot.getCube
  refine Moves.bind FP (onProp_getData_faded c w) fun d => ?_
  refine Moves.bind FP (Moves.lift FP _) fun b => ?_
  split_ifs
  · refine Moves.get_bind fun s => ?_
    cases hm : s.combinedMask with
    | error e => exact .refl s
    | ok m =>
      rw [Meth.lift_ok_bind]
      unfold Shallot.onProp
      cases h : s.prop c with
      | none => exact .refl s
      | some p =>
        exact faded_setProp h (nanWhere_faded m _ p fun i hi => Or.inr (combinedMask_some hm i hi))
  · exact Moves.pure FP d

theorem getGradientFit_faded (v w : PyVal K) : Moves Faded (Shallot.getGradientFit v w) := by
  unfold Shallot.getGradientFit
  refine Moves.bind FP (Moves.get FP) fun s => ?_
  split_ifs
  · exact Moves.pure FP _
  · exact Moves.bind FP (getCube_faded _ _ _) fun d => Moves.pure FP _

theorem onGradient_faded (k : ℕ) (v : PyVal K) :
    Moves Faded (Shallot.onGradient k (Shallot.gradientValues.onGradData v)) := by
  intro s
  unfold Shallot.onGradient
  cases h : (s.gradients.getD [])[k]? with
  | none => exact .refl s
  | some g =>
    cases hg : s.gradients with
    | none => rw [hg] at h; cases h
    | some l =>
      rw [hg] at h
      simp only [Option.getD_some] at h ⊢
      have props := (Faded.refl s).props
      refine ⟨rfl, ?_, Or.inr ⟨l, _, hg, rfl, ?_⟩⟩
      · intro c
        rcases props c with ⟨h1, -⟩ | ⟨p, p', h1, -, -⟩
        · exact Or.inl ⟨h1, by cases c <;> exact h1⟩
        · exact Or.inr ⟨p, p, h1, by cases c <;> exact h1, .refl p⟩
      · rw [List.forall₂_iff_get]
        refine ⟨by simp, fun i h1 h2 => ?_⟩
        simp only [List.get_eq_getElem, List.getElem_set]
        by_cases hik : k = i
        · subst hik
          have hlk : l[k] = g := by
            rw [List.getElem?_eq_getElem h1] at h
            exact Option.some.inj h
          rw [if_pos rfl, hlk]
          exact ⟨rfl, getData_faded v g.prop⟩
        · rw [if_neg hik]
          exact ⟨rfl, .refl _⟩

theorem lookup_faded (c : Cube) (v : PyVal K) (y x r : ℤ) :
    Moves Faded (Shallot.lookup c v y x r) :=
  Moves.bind FP (getCube_faded _ _ _) fun _ => Moves.lift FP _

theorem gradientValues_faded (v : PyVal K) (y x r : ℤ) : ∀ n k : ℕ,
    Moves Faded (Shallot.gradientValues v y x r n k)
  | 0, k => Moves.pure FP _
  | n + 1, k => by
    unfold Shallot.gradientValues
    refine Moves.bind FP (Moves.get FP) fun s => ?_
    refine Moves.bind FP (onGradient_faded k v) fun d => ?_
    refine Moves.bind FP (Moves.lift FP _) fun _ => ?_
    exact Moves.bind FP (gradientValues_faded v y x r n (k + 1)) fun _ => Moves.pure FP _

theorem gradientsAt_faded (v : PyVal K) (y x r : ℤ) :
    Moves Faded (Shallot.gradientsAt v y x r) := by
  unfold Shallot.gradientsAt
  refine Moves.bind FP (Moves.get FP) fun s => ?_
  cases s.gradients with
  | none => exact Moves.pure FP _
  | some l => exact Moves.bind FP (gradientValues_faded _ _ _ _ _ _) fun _ => Moves.pure FP _

theorem gridPoint_faded (y x r v : PyVal K) : Moves Faded (Shallot.gridPoint y x r v) := by
  unfold Shallot.gridPoint
  refine Moves.bind FP (Moves.get FP) fun s => ?_
  refine Moves.bind FP (Moves.lift FP _) fun _ => ?_
  refine Moves.bind FP (Moves.lift FP _) fun _ => ?_
  refine Moves.bind FP (Moves.lift FP _) fun _ => ?_
  refine Moves.bind FP (lookup_faded _ _ _ _ _) fun _ => ?_
  refine Moves.bind FP (lookup_faded _ _ _ _ _) fun _ => ?_
  refine Moves.bind FP (lookup_faded _ _ _ _ _) fun _ => ?_
  refine Moves.bind FP (Moves.lift FP _) fun _ => ?_
  refine Moves.bind FP (Moves.lift FP _) fun _ => ?_
  refine Moves.bind FP (Moves.lift FP _) fun _ => ?_
  refine Moves.bind FP (lookup_faded _ _ _ _ _) fun _ => ?_
  refine Moves.bind FP (lookup_faded _ _ _ _ _) fun _ => ?_
  refine Moves.bind FP (lookup_faded _ _ _ _ _) fun _ => ?_
  exact Moves.bind FP (gradientsAt_faded _ _ _ _) fun _ => Moves.pure FP _

variable [RealFns K]

theorem gradientLoop_faded (m : Mask) (v : PyVal K) : ∀ n k : ℕ,
    Moves Faded (Shallot.gradientLoop m v n k)
  | 0, k => Moves.pure FP _
  | n + 1, k => by
    unfold Shallot.gradientLoop
    refine Moves.bind FP (Moves.get FP) fun s => ?_
    cases (s.gradients.getD [])[k]? with
    | none => exact Moves.pure FP _
    | some g =>
      refine Moves.bind FP (Moves.lift FP _) fun _ => ?_
      refine Moves.bind FP (onGradient_faded k v) fun d => ?_
      exact Moves.bind FP (gradientLoop_faded m v n (k + 1)) fun _ => Moves.pure FP _

theorem getGradients_faded (a b : PyVal K) : Moves Faded (Shallot.getGradients a b) := by
  unfold Shallot.getGradients
  refine Moves.bind FP (Moves.get FP) fun s => ?_
  cases s.gradients with
  | none => exact Moves.throw FP _
  | some l =>
    refine Moves.bind FP (Moves.lift FP _) fun _ => ?_
    refine Moves.bind FP (Moves.lift FP _) fun _ => ?_
    exact gradientLoop_faded _ _ _ _

theorem closestPoint_faded (a b c d e : PyVal K) :
    Moves Faded (Shallot.closestPoint a b c d e) := by
  unfold Shallot.closestPoint
  refine Moves.bind FP (Moves.lift FP _) fun _ => ?_
  refine Moves.bind FP (Moves.lift FP _) fun _ => ?_
  refine Moves.bind FP (Moves.lift FP _) fun _ => ?_
  refine Moves.bind FP (Moves.lift FP _) fun _ => ?_
  refine Moves.bind FP (Moves.lift FP _) fun _ => ?_
  refine Moves.bind FP (getCube_faded _ _ _) fun _ => ?_
  refine Moves.bind FP (getCube_faded _ _ _) fun _ => ?_
  refine Moves.bind FP (getCube_faded _ _ _) fun _ => ?_
  exact Moves.bind FP (Moves.get FP) fun _ => Moves.lift FP _

/-! ## C43 -/

/-- The methods that are meant to read only. -/
def Spec.Reads : GridOp K → Prop
  | .get _ _ _ | .getFit _ _ | .getGradients _ _ | .point _ _ _ _ | .closest _ _ _ _ _ => True
  | _ => False

variable [FloorRing K]

/-- **C43 (partial)** After any sequence of reads, with any arguments and exceptions caught, the grid
is as it was except that elements of its cubes may have become NaN, and these lie under a mask of the
cube itself or under the combined mask (for gradients: under their own mask).  In particular no mask
changes.  Missing for the full claim: the elements under a mask, for which it is false, see
`C43_false`. -/
theorem C43_reads_partial (ops : List (GridOp K)) (h : ∀ op ∈ ops, Reads op) (s : Shallot K) :
    Faded s (runGrid ops s) := by
  induction ops generalizing s with
  | nil => exact .refl s
  | cons op ops ih =>
    refine Faded.trans ?_ (ih (fun o ho => h o (by simp [ho])) (op.exec s))
    have hr := h op (by simp)
    cases op with
    | get c v w => exact getCube_faded c v w s
    | getFit v w => exact getGradientFit_faded v w s
    | getGradients v w => exact getGradients_faded v w s
    | point y x r v => exact gridPoint_faded y x r v s
    | closest a b c d v => exact closestPoint_faded a b c d v s
    | _ => exact hr.elim

/-- **C43 (partial)** With both flags off a getter returns the stored cube and changes nothing. -/
theorem C43_plain_partial (s : Shallot K) (c : Cube) (p : GProp K) (hp : s.prop c = some p) :
    Shallot.getCube c (.bool false) (.bool false) s = (.ok p.data, s) := by
  unfold Shallot.getCube
  have h : Shallot.onProp c (GProp.getData (.bool false)) s = (.ok p.data, s) := by
    unfold Shallot.onProp
    rw [hp]
    simp only [C30_unmasked_read p false (Or.inl rfl)]
    congr 1
    cases c <;> simp_all [Shallot.prop, Shallot.setProp]
    all_goals (rw [← hp])
  rw [bind_ok _ _ _ _ _ h]
  rfl

/-- What a masked read gives and leaves: NaN wherever the combined mask or the cube's own mask is
true, the stored value elsewhere. -/
theorem getCube_masked (s : Shallot K) (hs : Sound s) (c : Cube) (p : GProp K)
    (hp : s.prop c = some p) :
    ∃ d : Nd K, Shallot.getCube c (.bool true) (.bool true) s =
        (.ok d, s.setProp { p with data := d } c) ∧ d.shape = p.data.shape ∧
      d.data.length = p.data.data.length ∧
      ∀ i < p.data.data.length, (Marked p.mask i ∨ MaskedAt s i → d.data[i]? = some XF.nan) ∧
        (¬ (Marked p.mask i ∨ MaskedAt s i) → d.data[i]? = p.data.data[i]?) := by
  have hsh := hs.props c p hp
  obtain ⟨d1, h1, hd1, hl1, hv1⟩ : ∃ d1 : Nd K,
      GProp.getData (.bool true) p = (.ok d1, { p with data := d1 }) ∧
      d1.shape = p.data.shape ∧ d1.data.length = p.data.data.length ∧
      ∀ i < p.data.data.length, (Marked p.mask i → d1.data[i]? = some XF.nan) ∧
        (¬ Marked p.mask i → d1.data[i]? = p.data.data[i]?) := by
    have hcase : p.mask = none ∨ ∃ m, p.mask = some m := by cases p.mask <;> simp
    rcases hcase with hm | ⟨m, hm⟩
    · refine ⟨p.data, C30_unmasked_read p true (Or.inr hm), rfl, rfl, fun i hi => ⟨?_, fun _ => rfl⟩⟩
      rintro ⟨k, hk, -⟩
      rw [hm] at hk
      cases hk
    · have hms : m.shape = p.data.shape := by rw [(hsh.mask m hm).1, hsh.data.1]
      refine ⟨⟨p.data.shape, putWhere .nan m.data p.data.data⟩, ?_, rfl, putWhere_length _ _ _, ?_⟩
      · unfold GProp.getData
        have : boolean (K := K) (.bool true) = .ok true := rfl
        rw [this, Meth.lift_ok_bind, Meth.get_bind]
        obtain ⟨a1, a2, a3, a4, a5, a6, a7, a8, a9⟩ := p
        simp only at hm hms
        subst hm
        simp only [if_pos hms]
        rfl
      · intro i hi
        obtain ⟨h1, h2⟩ := putWhere_get XF.nan m.data p.data.data i
        refine ⟨?_, ?_⟩
        · rintro ⟨k, hk, hk'⟩
          rw [hm] at hk
          cases hk
          exact h1 hk' hi
        · intro hno
          exact h2 fun h => hno ⟨m, hm, h⟩
  have hstep : Shallot.onProp c (GProp.getData (.bool true)) s =
      (.ok d1, s.setProp { p with data := d1 } c) := by
    unfold Shallot.onProp
    rw [hp]
    simp only [h1]
  obtain ⟨s1, hs1⟩ : ∃ s1, s1 = s.setProp { p with data := d1 } c := ⟨_, rfl⟩
  rw [← hs1] at hstep
  have hfade : Faded s s1 := by
    have := onProp_getData_faded c (.bool true) s
    rwa [hstep] at this
  have hsound : Sound s1 := by
    have := onProp_sound c _ (getData_shape (.bool true)) s hs
    rwa [hstep] at this
  obtain ⟨m, hm, hm1, hm2, hm3⟩ := C38_union s1 hsound
  have hp1 : s1.prop c = some { p with data := d1 } := by
    rw [hs1, setProp_prop, if_pos rfl]
  have hpar : s1.params = s.params := by rw [hs1, setProp_params]
  have hshape : m.shape = d1.shape := by
    rw [hm1, hd1, hsh.data.1, hpar]
  refine ⟨d1.putNan m, ?_, hd1, (putWhere_length _ _ _).trans hl1, ?_⟩
  · unfold Shallot.getCube
    rw [bind_ok _ _ _ _ _ hstep]
    have : boolean (K := K) (.bool true) = .ok true := rfl
    rw [this, Meth.lift_ok_bind]
    simp only [if_true, Meth.get_bind]
    rw [hm, Meth.lift_ok_bind]
    unfold Shallot.onProp
    rw [hp1]
    have hnan : Shallot.nanWhere m ({ p with data := d1 } : GProp K) =
        (.ok (d1.putNan m), { p with data := d1.putNan m }) := by
      unfold Shallot.nanWhere
      rw [Meth.get_bind]
      simp only [if_pos hshape]
      rfl
    simp only [hnan]
    rw [hs1]
    congr 1
    cases c <;> rfl
  · intro i hi
    obtain ⟨h1, h2⟩ := putWhere_get XF.nan m.data d1.data i
    have hmi : m.data[i]? = some true ↔ MaskedAt s i := by rw [hm3, hfade.maskedAt]
    refine ⟨?_, ?_⟩
    · intro h
      by_cases hc : MaskedAt s i
      · exact h1 (hmi.2 hc) (by rw [hl1]; exact hi)
      · have := h.resolve_right hc
        show (putWhere XF.nan m.data d1.data)[i]? = _
        rw [h2 (fun h => hc (hmi.1 h))]
        exact (hv1 i hi).1 this
    · intro h
      push Not at h
      show (putWhere XF.nan m.data d1.data)[i]? = _
      rw [h2 (fun h' => h.2 (hmi.1 h'))]
      exact (hv1 i hi).2 h.1

/-- **C43 is false of the code** Whenever an element with a value lies under the combined mask, the
ordinary call of a getter destroys that value: the grid is another one afterwards, and reading it
with both flags off gives NaN. -/
theorem C43_false (s : Shallot K) (hs : Sound s) (c : Cube) (p : GProp K) (hp : s.prop c = some p)
    (i : ℕ) (x : XF K) (hx : p.data.data[i]? = some x) (hn : x ≠ .nan) (hi : MaskedAt s i) :
    ∃ d s' d', Shallot.getCube c (.bool true) (.bool true) s = (.ok d, s') ∧ s' ≠ s ∧
      Shallot.getCube c (.bool false) (.bool false) s' = (.ok d', s') ∧
      d'.data[i]? = some XF.nan := by
  obtain ⟨d, h, h1, h2, h3⟩ := getCube_masked s hs c p hp
  have hlt : i < p.data.data.length := (List.getElem?_eq_some_iff.1 hx).1
  have hd := (h3 i hlt).1 (Or.inr hi)
  refine ⟨d, _, d, h, ?_, ?_, hd⟩
  · intro e
    have : (s.setProp { p with data := d } c).prop c = s.prop c := by rw [e]
    rw [setProp_prop, if_pos rfl, hp] at this
    have : d = p.data := by
      have := congrArg (Option.map GProp.data) this
      simpa using this
    rw [this, hx] at hd
    exact hn (Option.some.inj hd)
  · exact C43_plain_partial (s.setProp { p with data := d } c) c { p with data := d }
      (by rw [setProp_prop, if_pos rfl])

/-! ## C44 -/

/-- **C44** `generate_hill_radius_mask(h)` succeeds exactly if `h` is a number that is not negative;
then only the mask of the disk radius changes, and it marks exactly the elements that are NaN or
larger than `h`.  Otherwise nothing changes. -/
theorem C44_exact (s : Shallot K) (v : PyVal K) :
    (∀ h, IsNumber false v h → ¬ Less h (.fin 0) →
      ∃ m, Shallot.hillMask v s =
          (.ok (), { s with diskRadius := { s.diskRadius with mask := some m } }) ∧
        m.shape = s.diskRadius.data.shape ∧ m.data.length = s.diskRadius.data.data.length ∧
        ∀ (i : ℕ) (x : XF K), s.diskRadius.data.data[i]? = some x →
          (m.data[i]? = some true ↔ x = .nan ∨ Less h x)) ∧
    ((¬ ∃ h, IsNumber false v h ∧ ¬ Less h (.fin 0)) →
      ∃ e, Shallot.hillMask v s = (.error e, s)) := by
  constructor
  · intro h hv hneg
    have hh := isNumber_num hv
    rcases notNeg_float v with ⟨h1, -⟩ | ⟨e, -, h2⟩
    · obtain ⟨d, hd⟩ : ∃ d, d = s.diskRadius.data := ⟨_, rfl⟩
      refine ⟨⟨d.shape, d.data.map fun x => Shallot.hillAt v.num x⟩, ?_, by rw [hd], by simp [hd], ?_⟩
      · unfold Shallot.hillMask
        rw [h1, Meth.lift_ok_bind]
        simp only [Meth.get_bind]
        unfold Shallot.onProp
        simp only [Shallot.prop]
        rcases setMask_cases (.arr ⟨"bool", s.diskRadius.data.shape,
          s.diskRadius.data.data.map fun x => .fin (if Shallot.hillAt v.num x = true then 1 else 0)⟩)
          s.diskRadius with ⟨a, e1, -, -, e2⟩ | ⟨-, hno⟩
        · rw [e2]
          obtain rfl : _ = a := by simpa using e1
          simp only [Shallot.setProp, NpArr.toMask, List.map_map]
          have hfun : ((fun x : XF K => decide (x ≠ XF.fin 0)) ∘ fun x =>
              XF.fin (if Shallot.hillAt v.num x = true then 1 else 0)) =
              fun x => Shallot.hillAt v.num x := by
            funext x
            cases hb : Shallot.hillAt v.num x <;> simp [hb]
          rw [hfun, hd]
        · exact absurd ⟨_, rfl, rfl, rfl⟩ hno
      · intro i x hx
        rw [← hd] at hx
        simp only [List.getElem?_map, hx, Option.map_some, Option.some.injEq]
        rw [less_iff, hh]
        unfold Shallot.hillAt
        cases x <;> simp [XF.isNan]
    · exact absurd ⟨h, hv, hneg⟩ h2
  · intro hno
    rcases notNeg_float v with ⟨-, x, h1, h2⟩ | ⟨e, h1, -⟩
    · exact absurd ⟨x, h1, h2⟩ hno
    · refine ⟨e, ?_⟩
      unfold Shallot.hillMask
      rw [h1]
      rfl

/-- **C44** A larger Hill radius masks no more elements. -/
theorem C44_monotone (s s₁ s₂ : Shallot K) (v₁ v₂ : PyVal K) (h₁ h₂ : XF K)
    (n₁ : IsNumber false v₁ h₁) (n₂ : IsNumber false v₂ h₂) (hle : LessEq h₁ h₂)
    (e₁ : Shallot.hillMask v₁ s = (.ok (), s₁)) (e₂ : Shallot.hillMask v₂ s = (.ok (), s₂)) (i : ℕ)
    (hi : i < s.diskRadius.data.data.length) :
    Marked s₂.diskRadius.mask i → Marked s₁.diskRadius.mask i := by
  have key : ∀ (v : PyVal K) (h : XF K) (s' : Shallot K), IsNumber false v h →
      Shallot.hillMask v s = (.ok (), s') →
      (Marked s'.diskRadius.mask i ↔ s.diskRadius.data.data[i] = .nan ∨
        Less h s.diskRadius.data.data[i]) := by
    intro v h s' hv he
    obtain ⟨c1, c2⟩ := C44_exact s v
    by_cases hneg : Less h (.fin 0)
    · obtain ⟨e, h'⟩ := c2 (by
        rintro ⟨x, hx, hx'⟩
        rw [isNumber_unique hx hv] at hx'
        exact hx' hneg)
      rw [h'] at he; cases he
    · obtain ⟨m, h', -, -, hm⟩ := c1 h hv hneg
      rw [h'] at he
      cases he
      have := hm i _ (List.getElem?_eq_getElem hi)
      rw [← this]
      simp [Marked]
  rw [key v₁ h₁ s₁ n₁ e₁, key v₂ h₂ s₂ n₂ e₂]
  rintro (h | h)
  · exact Or.inl h
  · right
    rw [less_iff] at h ⊢
    rw [lessEq_iff] at hle
    generalize s.diskRadius.data.data[i] = x at h
    cases h₁ <;> cases h₂ <;> cases x <;> simp_all [XF.lt, XF.le]
    exact lt_of_le_of_lt hle h

/-- **C43 is false of the code** A Hill mask that is made wider after a masked read keeps masking
what the first one masked: `C44` is about what is stored, and that has been erased. -/
theorem C43_false_hill (s : Shallot K) (hs : Sound s) (v₁ v₂ : PyVal K) (h₁ h₂ : XF K)
    (n₁ : IsNumber false v₁ h₁) (n₂ : IsNumber false v₂ h₂) (p₁ : ¬ Less h₁ (.fin 0))
    (p₂ : ¬ Less h₂ (.fin 0)) (i : ℕ) (x : XF K) (hx : s.diskRadius.data.data[i]? = some x)
    (hout : Less h₁ x) (hin : LessEq x h₂) :
    ∃ s₂, Shallot.hillMask v₂ s = (.ok (), s₂) ∧ ¬ Marked s₂.diskRadius.mask i ∧
      Marked (runGrid [.hill v₁, .get .diskRadius (.bool true) (.bool true), .hill v₂]
        s).diskRadius.mask i := by
  obtain ⟨m, h', -, -, hm⟩ := (C44_exact s v₂).1 h₂ n₂ p₂
  have hnn : x ≠ .nan := by
    rintro rfl
    rw [less_iff] at hout
    cases h₁ <;> simp [XF.lt] at hout
  refine ⟨_, h', ?_, ?_⟩
  · rintro ⟨k, hk, hk'⟩
    cases hk
    rcases (hm i x hx).1 hk' with h | h
    · exact hnn h
    · rw [less_iff] at h
      rw [lessEq_iff] at hin
      cases x <;> cases h₂ <;> simp_all [XF.lt, XF.le]
      exact absurd (lt_of_le_of_lt hin h) (lt_irrefl _)
  · obtain ⟨m₁, e₁, -, -, hm₁⟩ := (C44_exact s v₁).1 h₁ n₁ p₁
    have hs₁ : Sound (GridOp.exec (.hill v₁) s) := exec_sound _ s hs
    have hex : GridOp.exec (.hill v₁) s =
        { s with diskRadius := { s.diskRadius with mask := some m₁ } } := by
      show (Shallot.hillMask v₁ s).2 = _
      rw [e₁]
    obtain ⟨d, e₂, -, -, hd⟩ := getCube_masked _ hs₁ .diskRadius _ rfl
    have hmark : Marked (GridOp.exec (.hill v₁) s).diskRadius.mask i := by
      rw [hex]
      exact ⟨m₁, rfl, (hm₁ i x hx).2 (Or.inr hout)⟩
    have hlt : i < (GridOp.exec (.hill v₁) s).diskRadius.data.data.length := by
      rw [hex]
      exact (List.getElem?_eq_some_iff.1 hx).1
    have hnan := (hd i hlt).1 (Or.inl hmark)
    obtain ⟨s₃, hs₃⟩ : ∃ t, t = GridOp.exec (.get .diskRadius (.bool true) (.bool true))
      (GridOp.exec (.hill v₁) s) := ⟨_, rfl⟩
    have hd₃ : s₃.diskRadius.data = d := by
      rw [hs₃]
      show (Shallot.getCube _ _ _ _).2.diskRadius.data = d
      rw [e₂]
      rfl
    obtain ⟨m₃, e₃, -, -, hm₃⟩ := (C44_exact s₃ v₂).1 h₂ n₂ p₂
    have : runGrid [.hill v₁, .get .diskRadius (.bool true) (.bool true), .hill v₂] s =
        (Shallot.hillMask v₂ s₃).2 := by rw [hs₃]; rfl
    rw [this, e₃]
    refine ⟨m₃, rfl, (hm₃ i .nan ?_).2 (Or.inl rfl)⟩
    rw [hd₃]
    exact hnan

end

/-! ## A grid that meets the hypotheses -/

/-- A grid made by the constructor: it is sound, and the disk of element 25 has a radius. -/
theorem throwAway_sound : ∃ s, Shallot.new (.int 100) (.bool false) throwAway = (.ok s, s.params) ∧
    Sound s ∧ s.params.gridShape = (3, 3, 3) ∧
    (s.diskRadius.mask = none ∧ s.inclination.mask = none ∧ s.tilt.mask = none) ∧
    (s.gradients = none ∧ s.gradientFit = none) ∧ (∃ p, s.diagnosticMap = some p) ∧
    ∃ R : ℝ, 0 < R ∧ s.diskRadius.data.data[25]? = some (.fin R) := by
  obtain ⟨s, d, h1, h2, hgs, p, hp, R, hR, hv, -⟩ := throwAway_disk
  have hs := sound_complete h2
  refine ⟨s, h1, hs, hgs, ⟨h2.masks.1, h2.masks.2.1, h2.masks.2.2.1⟩, ⟨h2.nothing.1, h2.nothing.2.1⟩,
    ⟨p, hp⟩, R, hR, ?_⟩
  have hc := (hs.props .diskRadius _ rfl).data
  rw [hgs] at hc
  rw [at3_get hc.1, List.getD_eq_getElem?_getD] at hv
  have hlt : 25 < s.diskRadius.data.data.length := by rw [hc.2]; norm_num
  have hv : s.diskRadius.data.data[25]?.getD .nan = .fin R := hv
  rw [List.getElem?_eq_getElem hlt] at hv ⊢
  exact congrArg some hv

/-- With a Hill radius of 0 the disk of element 25 is masked. -/
theorem throwAway_masked : ∃ s₀ s : Shallot ℝ,
    Shallot.new (.int 100) (.bool false) throwAway = (.ok s₀, s₀.params) ∧
    Shallot.hillMask (.int 0) s₀ = (.ok (), s) ∧ Sound s ∧ MaskedAt s 25 ∧
    ∃ R : ℝ, 0 < R ∧ s.diskRadius.data.data[25]? = some (.fin R) := by
  obtain ⟨s₀, h1, hs, -, -, -, -, R, hR, hv⟩ := throwAway_sound
  have h0 : IsNumber (K := ℝ) false (.int 0) (.fin 0) := Or.inl ⟨0, .int 0, by simp⟩
  obtain ⟨m, he, -, -, hm⟩ := (C44_exact s₀ (.int 0)).1 _ h0 (by rw [less_iff]; simp)
  have hs' := exec_sound (.hill (.int 0)) s₀ hs
  have hex : GridOp.exec (.hill (.int 0)) s₀ = (Shallot.hillMask (.int 0) s₀).2 := rfl
  rw [hex, he] at hs'
  refine ⟨s₀, _, h1, he, hs', ?_, R, hR, hv⟩
  exact (Or.inl ⟨m, rfl, (hm 25 _ hv).2 (Or.inr (by rw [less_iff]; simpa using hR))⟩)

/-- The hypotheses of `C38_union` are met, and its mask marks something. -/
example : ∃ (s : Shallot ℝ) (m : Mask), Sound s ∧ s.combinedMask = .ok m ∧ m.data[25]? = some true := by
  obtain ⟨-, s, -, -, hs, hm, -⟩ := throwAway_masked
  obtain ⟨m, h1, -, -, h2⟩ := C38_union s hs
  exact ⟨s, m, hs, h1, (h2 25).2 hm⟩

/-- The hypotheses of `C43_false` are met: the radius that the constructor stored is gone after one
read under a Hill mask. -/
theorem C43_false_witness : ∃ (s₀ : Shallot ℝ) (R : ℝ),
    Shallot.new (.int 100) (.bool false) throwAway = (.ok s₀, s₀.params) ∧ 0 < R ∧
    s₀.diskRadius.data.data[25]? = some (.fin R) ∧
    (runGrid [.hill (.int 0), .get .diskRadius (.bool true) (.bool true)] s₀).diskRadius.data.data[25]?
      = some .nan := by
  obtain ⟨s₀, s, h1, h2, hs, hm, R, hR, hv⟩ := throwAway_masked
  have hex : GridOp.exec (.hill (.int 0)) s₀ = s := by
    show (Shallot.hillMask (.int 0) s₀).2 = s
    rw [h2]
  have hv0 : s₀.diskRadius.data.data[25]? = some (.fin R) := by
    obtain ⟨m, he, -⟩ := (C44_exact s₀ (.int 0)).1 (.fin 0) (Or.inl ⟨0, .int 0, by simp⟩)
      (by rw [less_iff]; simp)
    rw [he] at h2
    cases h2
    exact hv
  refine ⟨s₀, R, h1, hR, hv0, ?_⟩
  obtain ⟨d, e₂, -, -, hd⟩ := getCube_masked s hs .diskRadius _ rfl
  have : runGrid [.hill (.int 0), .get .diskRadius (.bool true) (.bool true)] s₀ =
      s.setProp { s.diskRadius with data := d } .diskRadius := by
    show (GridOp.exec (.get .diskRadius (.bool true) (.bool true)) (GridOp.exec (.hill (.int 0)) s₀)) = _
    rw [hex]
    show (Shallot.getCube _ _ _ s).2 = _
    rw [e₂]
  rw [this]
  exact (hd 25 (List.getElem?_eq_some_iff.1 hv).1).1 (Or.inr hm)

/-- The hypotheses of `C43_false_hill` are met: a Hill radius of 0 and one as large as the disk. -/
example : ∃ (s : Shallot ℝ) (v : PyVal ℝ), Sound s ∧ ∃ s₂, Shallot.hillMask v s = (.ok (), s₂) ∧
    ¬ Marked s₂.diskRadius.mask 25 ∧ Marked (runGrid [.hill (.int 0),
      .get .diskRadius (.bool true) (.bool true), .hill v] s).diskRadius.mask 25 := by
  obtain ⟨s, -, hs, -, -, -, -, R, hR, hv⟩ := throwAway_sound
  exact ⟨s, .float (.fin R), hs, C43_false_hill s hs (.int 0) (.float (.fin R)) (.fin 0) (.fin R)
    (Or.inl ⟨0, .int 0, by simp⟩) (Or.inr ⟨rfl, .float _⟩) (by rw [less_iff]; simp)
    (by rw [less_iff]; simpa using hR.le) 25 (.fin R) hv (by rw [less_iff]; simpa using hR)
    (by rw [lessEq_iff]; simp)⟩

end Beyonce
