import Verif.Props.SplitMerge

/-!
# Properties C08 and C19: rings of a system never overlap; failures change nothing
-/

set_option linter.unusedSectionVars false

namespace Beyonce
open Spec
variable {K : Type} [Field K] [LinearOrder K]

/-- A system as it should be: admissible geometry, valid rings that carry the geometry of the
system, ordered from the inside out without overlap. -/
structure Spec.WellFormed (s : RSys K) : Prop where
  geometry : GoodGeometry s
  valid : ∀ r ∈ s.rings, ValidRing r
  inclined : ∀ r ∈ s.rings, r.inclination = s.inclination
  tilted : ∀ r ∈ s.rings, r.tilt = s.tilt
  ordered : s.rings.Pairwise (fun r r' => LessEq r.outer r'.inner)

/-- A call of one of the editing methods of a ring system. -/
inductive SysOp (K : Type)
  | add (index : PyVal K) (ring : RingObj K)
  | remove (index : PyVal K)
  | replace (index : PyVal K) (ring : RingObj K)
  | split (numDivisions : PyVal K)
  | merge (tolerance : XF K)

/-- The state of the system after a call, whether it raised or not. -/
def SysOp.exec [FloorRing K] (s : RSys K) : SysOp K → RSys K
  | .add i r => (addRing i ⟨s, r⟩).2.sys
  | .remove i => (removeRing i s).2
  | .replace i r => (replaceRing i ⟨s, r⟩).2.sys
  | .split nd => (splitRings id nd s).2
  | .merge tol => (mergeRings id tol s).2

/-- The arguments of a call are not a `bool` as index nor an invalid ring; any other index,
tolerance and division argument is allowed. -/
def Spec.Sane : SysOp K → Prop
  | .add i r | .replace i r => (∀ b, i ≠ .bool b) ∧ ValidRing r
  | .remove i => ∀ b, i ≠ .bool b
  | _ => True

/-! ## Helper lemmas -/

theorem number_not_index {v : PyVal K} (hb : ∀ b, v ≠ .bool b) (h : ∀ k, ¬ IsIndex v k)
    (l u : PyVal K) : ∃ e, number v (.bool true) l u = .error e := by
  cases hn : number v (.bool true) l u with
  | error e => exact ⟨e, rfl⟩
  | ok w =>
    obtain ⟨-, x, _, _, hx, -⟩ := (C01_number_ok_iff _ _ _ _ _ _).1 hn
    rcases hx with ⟨n, hn, -⟩ | ⟨h', -⟩
    · exact absurd ⟨hn, hb⟩ (h n)
    · cases h'

variable [IsStrictOrderedRing K]

theorem wellFormed_iff (s : RSys K) : WellFormed s ↔
    GoodGeometry s ∧ ∃ segs, s.rings = segs.map (ringOf s) ∧ OrderedSegs segs := by
  constructor
  · intro h
    refine ⟨h.geometry, ?_⟩
    have hv := h.valid; have hi := h.inclined; have ht := h.tilted; have ho := h.ordered
    clear h
    generalize s.rings = l at *
    induction l with
    | nil => exact ⟨[], rfl, by simp [OrderedSegs]⟩
    | cons r rs ih =>
      obtain ⟨segs, h1, h2, h3⟩ := ih (fun x hx => hv x (by simp [hx]))
        (fun x hx => hi x (by simp [hx])) (fun x hx => ht x (by simp [hx]))
        (List.pairwise_cons.1 ho).2
      obtain ⟨a, b, t, i, p, rfl, ha, hab, ht1, ht2, -⟩ := hv r (by simp)
      have hi' := hi _ (List.mem_cons_self ..)
      have ht' := ht _ (List.mem_cons_self ..)
      refine ⟨⟨a, b, t⟩ :: segs, ?_, ?_, ?_⟩
      · simp only [List.map_cons, ringOf, ← hi', ← ht', List.cons.injEq, true_and]
        rw [h1]
      · intro g hg
        rcases List.mem_cons.1 hg with rfl | hg
        · exact ⟨ha, hab, ht1, ht2⟩
        · exact h2 g hg
      · refine List.pairwise_cons.2 ⟨fun g hg => ?_, h3⟩
        have := (List.pairwise_cons.1 ho).1 (ringOf s g) (by rw [h1]; exact List.mem_map_of_mem hg)
        simpa [lessEq_iff, ringOf] using this
  · rintro ⟨hg, segs, h1, h2, h3⟩
    refine ⟨hg, ?_, ?_, ?_, ?_⟩
    · rw [h1]
      intro r hr
      obtain ⟨g, hgm, rfl⟩ := List.mem_map.1 hr
      obtain ⟨i, p, hi, hp, h4⟩ := hg
      obtain ⟨h5, h6, h7, h8⟩ := h2 g hgm
      exact ⟨g.a, g.b, g.t, i, p, by simp [ringOf, hi, hp], h5, h6, h7, h8, h4⟩
    · rw [h1]; intro r hr; obtain ⟨g, hgm, rfl⟩ := List.mem_map.1 hr; rfl
    · rw [h1]; intro r hr; obtain ⟨g, hgm, rfl⟩ := List.mem_map.1 hr; rfl
    · rw [h1, List.pairwise_map]
      refine h3.imp ?_
      intro g g' h
      simpa [lessEq_iff, ringOf] using h

/-- Replacing a stretch of the rings by a ring that fits in between keeps the order. -/
theorem wellFormed_insert {s : RSys K} (hs : WellFormed s) {ring : RingObj K} (hr : ValidRing ring)
    {k next : ℕ} (hk : k ≤ next) (hk' : k ≤ s.rings.length) (hf : Fits s.rings k next ring) :
    WellFormed { s with rings := s.rings.take k ++ adopted s ring :: s.rings.drop next } := by
  have hmem : ∀ r ∈ s.rings.take k ++ adopted s ring :: s.rings.drop next,
      r ∈ s.rings ∨ r = adopted s ring := by
    intro r hr
    simp only [List.mem_append, List.mem_cons] at hr
    rcases hr with h | h | h
    · exact Or.inl (List.mem_of_mem_take h)
    · exact Or.inr h
    · exact Or.inl (List.mem_of_mem_drop h)
  have hval : ∀ r ∈ s.rings, ∃ a b : K, r.inner = .fin a ∧ r.outer = .fin b ∧ a < b := by
    intro r hr
    obtain ⟨a, b, t, i, p, rfl, _, h, _⟩ := hs.valid r hr
    exact ⟨a, b, rfl, rfl, h⟩
  obtain ⟨a, b, t, i, p, rfl, ha, hab, ht1, ht2, -⟩ := hr
  refine ⟨hs.geometry, ?_, ?_, ?_, ?_⟩
  · intro r hr
    rcases hmem r hr with h | rfl
    · exact hs.valid r h
    · obtain ⟨i, p, hi, hp, h4⟩ := hs.geometry
      exact ⟨a, b, t, i, p, by simp [adopted, hi, hp], ha, hab, ht1, ht2, h4⟩
  · intro r hr
    rcases hmem r hr with h | rfl
    · exact hs.inclined r h
    · rfl
  · intro r hr
    rcases hmem r hr with h | rfl
    · exact hs.tilted r h
    · rfl
  · have hp := hs.ordered
    have hp' := List.pairwise_iff_getElem.1 hp
    -- everything before lies below
    have hbelow : ∀ r ∈ s.rings.take k, LessEq r.outer (.fin a) := by
      intro r hr
      obtain ⟨j, hj, rfl⟩ := List.mem_iff_getElem.1 hr
      rw [List.length_take] at hj
      have hjk : j < k := by omega
      have hjl : j < s.rings.length := by omega
      rw [List.getElem_take]
      have hlast : k - 1 < s.rings.length := by omega
      have hf' := hf.1 s.rings[k-1] (List.getElem?_eq_getElem hlast) (by omega)
      obtain ⟨a1, b1, h1, h2, h3⟩ := hval s.rings[k-1] (List.getElem_mem _)
      obtain ⟨a0, b0, h1', h2', h3'⟩ := hval s.rings[j] (List.getElem_mem _)
      rw [less_iff, h2] at hf'
      simp at hf'
      rw [lessEq_iff, h2']
      simp
      rcases Nat.lt_or_ge j (k - 1) with h | h
      · have := hp' j (k-1) hjl hlast h
        rw [lessEq_iff, h2', h1] at this
        simp at this
        linarith
      · have : j = k - 1 := by omega
        subst this
        rw [h2] at h2'
        simp at h2'
        linarith
    have habove : ∀ r ∈ s.rings.drop next, LessEq (.fin b) r.inner := by
      intro r hr
      obtain ⟨j, hj, rfl⟩ := List.mem_iff_getElem.1 hr
      rw [List.length_drop] at hj
      rw [List.getElem_drop]
      have hnl : next < s.rings.length := by omega
      have hf' := hf.2 s.rings[next] (List.getElem?_eq_getElem hnl)
      obtain ⟨a1, b1, h1, h2, h3⟩ := hval s.rings[next] (List.getElem_mem _)
      obtain ⟨a0, b0, h1', h2', h3'⟩ := hval s.rings[next + j] (List.getElem_mem _)
      rw [less_iff, h1] at hf'
      simp at hf'
      rw [lessEq_iff, h1']
      simp
      rcases Nat.eq_zero_or_pos j with h | h
      · subst h
        have : (XF.fin a1) = XF.fin a0 := by rw [← h1, ← h1']; rfl
        simp at this
        linarith
      · have := hp' next (next + j) hnl (by omega) (by omega)
        rw [lessEq_iff, h2, h1'] at this
        simp at this
        linarith
    refine List.pairwise_append.2 ⟨hp.sublist (List.take_sublist _ _),
      List.pairwise_cons.2 ⟨habove, hp.sublist (List.drop_sublist _ _)⟩, ?_⟩
    intro r hr r' hr'
    rcases List.mem_cons.1 hr' with rfl | hr'
    · exact hbelow r hr
    · obtain ⟨j, hj, rfl⟩ := List.mem_iff_getElem.1 hr
      obtain ⟨j', hj', rfl⟩ := List.mem_iff_getElem.1 hr'
      rw [List.length_take] at hj
      rw [List.length_drop] at hj'
      rw [List.getElem_take, List.getElem_drop]
      exact hp' j (next + j') (by omega) (by omega) (by omega)

theorem addRing_not_index {s : RSys K} {index : PyVal K} {ring : RingObj K}
    (hb : ∀ b, index ≠ .bool b) (h : ∀ k, ¬ IsIndex index k) :
    (addRing index ⟨s, ring⟩).2 = ⟨s, ring⟩ := by
  obtain ⟨e, he⟩ := number_not_index hb h (.int 0) (.int s.rings.length)
  unfold addRing preventOverlap
  simp [he, bind, Except.bind]

theorem replaceRing_not_index {s : RSys K} {index : PyVal K} {ring : RingObj K}
    (hb : ∀ b, index ≠ .bool b) (h : ∀ k, ¬ IsIndex index k) :
    (replaceRing index ⟨s, ring⟩).2 = ⟨s, ring⟩ := by
  obtain ⟨e, he⟩ := number_not_index hb h (.int 0) (.int ((s.rings.length : ℤ) - 1))
  unfold replaceRing
  simp [he]

theorem removeRing_not_index {s : RSys K} {index : PyVal K}
    (hb : ∀ b, index ≠ .bool b) (h : ∀ k, ¬ IsIndex index k) : (removeRing index s).2 = s := by
  obtain ⟨e, he⟩ := number_not_index hb h (.int 0) (.int ((s.rings.length : ℤ) - 1))
  unfold removeRing
  simp [he]

/-! ## C19 -/

/-- **C19** If `merge_rings` raises, for whatever reason and whatever rounding, the system is
unchanged. -/
theorem C19_merge_error_unchanged (rnd : K → K) (tol : XF K) (s : RSys K) (e : Err)
    (h : (mergeRings rnd tol s).1 = .error e) : (mergeRings rnd tol s).2 = s := by
  unfold mergeRings at *
  cases hr : s.rings with
  | nil => simp [hr]
  | cons r rs =>
    cases hm : mergeLoop rnd s tol r.inner r.inner r.transmission (r :: rs) with
    | error e => simp [hr, hm]
    | ok l => simp [hr, hm] at h

/-- **C19** If `split_rings` raises, for whatever reason and whatever rounding, the system is
unchanged. -/
theorem C19_split_error_unchanged [FloorRing K] (rnd : K → K) (nd : PyVal K) (s : RSys K) (e : Err)
    (h : (splitRings rnd nd s).1 = .error e) : (splitRings rnd nd s).2 = s := by
  unfold splitRings at *
  cases hr : divisions s nd with
  | error e => simp [hr]
  | ok ds =>
    cases hm : splitLoop rnd s (s.rings.zip ds) with
    | error e => simp [hr, hm]
    | ok l => simp [hr, hm] at h

/-- **C19** `merge_rings` with a tolerance that is not positive (or NaN) raises `ValueError` on
every well-formed system with at least one ring. -/
theorem C19_merge_bad_tolerance (s : RSys K) (hs : WellFormed s) (hne : s.rings ≠ []) (tol : XF K)
    (htol : ¬ Less (.fin 0) tol) : mergeRings id tol s = (.error .valueError, s) := by
  obtain ⟨i, p, hi, hp, -⟩ := hs.geometry
  unfold mergeRings
  cases hr : s.rings with
  | nil => exact absurd hr hne
  | cons r rs =>
    obtain ⟨a, b, t, i', p', rfl, ha, hab, h⟩ := hs.valid r (by simp [hr])
    have hc : (XF.lt ((XF.fin a).sub (.fin a) |>.round id).abs tol && XF.eqb (.fin t) (.fin t)) =
        false := by
      rw [less_iff] at htol
      simpa [XF.sub, XF.neg, XF.add, XF.abs] using htol
    have : mergeLoop id s tol (.fin a) (.fin a) (.fin t)
        (⟨.fin a, .fin b, .fin t, .fin i', .fin p'⟩ :: rs) = .error .valueError := by
      have hn : newRing (.float (.fin a)) (.float (.fin a)) (.float (.fin t)) (.float (.fin i))
          (.float (.fin p)) = .error .valueError := by
        rw [newRing_fin _ _ _ _ _ ha.ne', if_neg (fun h => lt_irrefl _ h.2.1)]
      rw [mergeLoop]
      simp only [hc, hi, hp, hn, Bool.false_eq_true, if_false, bind, Except.bind]
    simp [hr, this]

/-- **C19** `merge_rings` on an empty system raises `IndexError`. -/
theorem C19_merge_empty (s : RSys K) (hne : s.rings = []) (rnd : K → K) (tol : XF K) :
    mergeRings rnd tol s = (.error .indexError, s) := by
  unfold mergeRings
  simp [hne]

/-- **C19** `merge_rings` with a positive tolerance does not raise on a well-formed non-empty
system. -/
theorem C19_merge_succeeds (s : RSys K) (hs : WellFormed s) (hne : s.rings ≠ []) (tol : XF K)
    (htol : Less (.fin 0) tol) : (mergeRings id tol s).1 = .ok () := by
  obtain ⟨hg, segs, h1, h2⟩ := (wellFormed_iff s).1 hs
  obtain ⟨m, hm, -⟩ := C16_merge_rings_runs s hg segs (by rw [h1]; exact hasSegs_ringOf s segs) h2
    (by rintro rfl; exact hne (by simpa using h1)) tol htol
  rw [hm]

/-- **C19** `split_rings` with an integer below 2 (including `True`, `False`) raises
`ValueError`. -/
theorem C19_split_small_integer [FloorRing K] (s : RSys K) (nd : PyVal K) (k : ℤ)
    (hk : IsInteger nd k) (h : k < 2) : splitRings id nd s = (.error .valueError, s) := by
  have hn : number nd (.bool true) (.int 2) = .error .valueError := by
    refine (C01_number_errors _ _ _ _ _ ?_).1 ⟨⟨_, Or.inl ⟨k, hk, rfl⟩⟩, ⟨_, Or.inl ⟨2, .int 2, rfl⟩⟩,
      ⟨.pinf, Or.inr ⟨rfl, .float _⟩⟩⟩
    rintro ⟨x, l, u, h1, h2, h3, -, h5⟩
    have := isNumber_num h1; rw [isInteger_num hk] at this; subst this
    have := isNumber_num h2; subst this
    apply h5
    rw [not_violates_iff]
    have : (k : K) < 2 := by exact_mod_cast h
    simp [this]
  unfold splitRings divisions
  simp [hn]

/-- **C19** `split_rings` with an array that has an element below 1 raises `ValueError`. -/
theorem C19_split_small_element [FloorRing K] (s : RSys K) (a : NpArr K)
    (h : ∃ x ∈ a.data, Less x (.fin 1)) : splitRings id (.arr a) s = (.error .valueError, s) := by
  have h1 : number (K := K) (.arr a) (.bool true) (.int 2) = .error .typeError := rfl
  have h2 : array (K := K) (.arr a) (.int 1) .none (.bool false) (.str "int64") (.int 1) =
      .error .valueError := by
    obtain ⟨x, hx, hlt⟩ := h
    have hb : arrayBounds a (.int 1) (.float .pinf) (.bool false) = .error .valueError := by
      have : (a.data.any fun x => XF.lt x (.fin 1)) = true := by
        rw [List.any_eq_true]; exact ⟨x, hx, by rwa [less_iff] at hlt⟩
      have e1 : numberType (K := K) (.int 1) (.bool false) = .ok (.int 1) := rfl
      have e2 : numberType (K := K) (.float .pinf) (.bool false) = .ok (.float .pinf) := rfl
      have e3 : boolean (K := K) (.bool false) = .ok false := rfl
      unfold arrayBounds
      simp only [e1, e2, e3, bind, Except.bind, PyVal.num_int, PyVal.num_float, XF.lt_pinf,
        Bool.false_eq_true, if_false, Int.cast_one, this, Bool.true_or, if_true]
    have ea : arrayLike (K := K) (.arr a) = .ok a := rfl
    unfold array
    simp [ea, bind, Except.bind, hb]
  unfold splitRings divisions
  simp [h1, h2, bind, Except.bind]

/-- **C19** `split_rings` with a one-dimensional integer array of admissible elements but of the
wrong length raises `InvalidShapeError`. -/
theorem C19_split_wrong_length [FloorRing K] (s : RSys K) (n : ℕ) (data : List (XF K))
    (hd : ∀ x ∈ data, ¬ Less x (.fin 1)) (hn : n ≠ s.rings.length) :
    splitRings id (.arr ⟨"int64", [n], data⟩) s = (.error .invalidShapeError, s) := by
  have h1 : number (K := K) (.arr ⟨"int64", [n], data⟩) (.bool true) (.int 2) = .error .typeError := rfl
  have h2 : array (K := K) (.arr ⟨"int64", [n], data⟩) (.int 1) .none (.bool false) (.str "int64")
      (.int 1) = .ok ⟨"int64", [n], data⟩ := by
    refine (C03_array_ok_iff false (.arr ⟨"int64", [n], data⟩) ⟨"int64", [n], data⟩ (some (.int 1))
        none (some (.int 1)) (some "int64") (by simp) (by simp) (by simp)).2 ⟨rfl,
        fun _ => ⟨.fin ((1 : ℤ) : K), .pinf, Or.inl ⟨1, .int 1, rfl⟩, Or.inr ⟨rfl, .float _⟩,
          by rw [less_iff]; simp, ?_⟩, ?_, ?_⟩
    · intro x hx
      have := hd x hx
      rw [not_violates_iff]
      rw [less_iff] at this
      simpa using this
    · rintro d ⟨⟩; exact ⟨1, .int 1, by simp⟩
    · rintro d ⟨⟩; rfl
  have h3 : sameShapeArrays (K := K) [.arr ⟨"int64", [n], data⟩,
      .arr ⟨"object", [s.rings.length], []⟩] 2 = .error .invalidShapeError := by
    have e : ∀ a : NpArr K, arrayLike (K := K) (.arr a) = .ok a := fun _ => rfl
    simp [sameShapeArrays, sameShapeLoop, PyVal.shape, e, bind, Except.bind, Ne.symm hn]
  unfold splitRings divisions
  simp [h1, h2, h3, bind, Except.bind]

/-! ## C08 -/

/-- **C08** One call of an editing method, successful or not, keeps a system well-formed. -/
theorem C08_step [FloorRing K] (s : RSys K) (hs : WellFormed s) (op : SysOp K) (hop : Sane op) :
    WellFormed (op.exec s) := by
  cases op with
  | add i r =>
    obtain ⟨hb, hr⟩ := hop
    simp only [SysOp.exec]
    by_cases hi : ∃ k, IsIndex i k
    · obtain ⟨k, hk⟩ := hi
      cases h : (addRing i ⟨s, r⟩).1 with
      | error e => rw [(C11_add_ring_error s hs.geometry i k hk r e h).2]; exact hs
      | ok u =>
        obtain ⟨h1, h2, h3⟩ := (C11_add_ring_ok_iff s hs.geometry i k hk r).1 h
        rw [C11_add_ring_effect s hs.geometry i k hk r h]
        exact wellFormed_insert hs hr le_rfl (by omega) h3
    · rw [addRing_not_index hb (by simpa using hi)]; exact hs
  | replace i r =>
    obtain ⟨hb, hr⟩ := hop
    simp only [SysOp.exec]
    by_cases hi : ∃ k, IsIndex i k
    · obtain ⟨k, hk⟩ := hi
      cases h : (replaceRing i ⟨s, r⟩).1 with
      | error e => rw [(C13_replace_ring_error s hs.geometry i k hk r e h).2]; exact hs
      | ok u =>
        obtain ⟨h1, h2, h3⟩ := (C13_replace_ring_ok_iff s hs.geometry i k hk r).1 h
        rw [C13_replace_ring_effect s hs.geometry i k hk r h]
        exact wellFormed_insert hs hr (by omega) (by omega) h3
    · rw [replaceRing_not_index hb (by simpa using hi)]; exact hs
  | remove i =>
    simp only [SysOp.exec]
    by_cases hi : ∃ k, IsIndex i k
    · obtain ⟨k, hk⟩ := hi
      obtain ⟨h1, h2⟩ := C12_remove_ring s i k hk
      by_cases h : 0 ≤ k ∧ k < s.rings.length
      · rw [h1 h]
        have hsub : (s.rings.take k.toNat ++ s.rings.drop (k.toNat + 1)).Sublist s.rings := by
          rw [← List.eraseIdx_eq_take_drop_succ]; exact List.eraseIdx_sublist _ _
        exact ⟨hs.geometry, fun r hr => hs.valid r (hsub.subset hr),
          fun r hr => hs.inclined r (hsub.subset hr), fun r hr => hs.tilted r (hsub.subset hr),
          hs.ordered.sublist hsub⟩
      · rw [h2 h]; exact hs
    · rw [removeRing_not_index hop (by simpa using hi)]; exact hs
  | split nd =>
    simp only [SysOp.exec]
    obtain ⟨hg, segs, h1, h2⟩ := (wellFormed_iff s).1 hs
    unfold splitRings
    cases hd : divisions s nd with
    | error e => simpa [hd] using hs
    | ok ds =>
      have := splitLoop_exact hg s.rings segs ds (by rw [h1]; exact hasSegs_ringOf s segs) h2.1
      simp only [Meth.get_bind, hd, Meth.lift_ok_bind, this, Meth.modify_apply]
      exact (wellFormed_iff _).2 ⟨hg, splitSegs segs ds, rfl, splitSegs_ordered segs ds h2⟩
  | merge tol =>
    simp only [SysOp.exec]
    by_cases hne : s.rings = []
    · rw [C19_merge_empty s hne]; exact hs
    by_cases htol : Less (.fin 0) tol
    · obtain ⟨hg, segs, h1, h2⟩ := (wellFormed_iff s).1 hs
      obtain ⟨m, hm, hm'⟩ := C16_merge_rings_runs s hg segs (by rw [h1]; exact hasSegs_ringOf s segs)
        h2 (by rintro rfl; exact hne (by simpa using h1)) tol htol
      rw [hm]
      exact (wellFormed_iff _).2 ⟨hg, m, rfl, isMerge_ordered hm' h2⟩
    · rw [C19_merge_bad_tolerance s hs hne tol htol]; exact hs

/-- **C08** Rings of a system never overlap and stay ordered, valid and in the geometry of the
system, through every history of editing calls, successful or not. -/
theorem C08_rings_never_overlap [FloorRing K] (s : RSys K) (hs : WellFormed s)
    (ops : List (SysOp K)) (hops : ∀ op ∈ ops, Sane op) :
    WellFormed (ops.foldl SysOp.exec s) := by
  induction ops generalizing s with
  | nil => exact hs
  | cons op ops ih =>
    exact ih _ (C08_step s hs op (hops op (by simp))) (fun o ho => hops o (by simp [ho]))

/-- Non-vacuity: a history with successes and failures. -/
example : (([.split (.int 2), .add (.int 0) ⟨.fin (1/2), .fin 1, .fin 1, .fin 0, .fin 0⟩,
      .add (.int 0) ⟨.fin (1/2), .fin 1, .fin 1, .fin 0, .fin 0⟩, .merge (.fin 1), .remove (.int 7),
      .merge (.fin (-1))] : List (SysOp ℚ)).foldl SysOp.exec
    ⟨.fin 1, .fin 10, .fin 20, [⟨.fin 1, .fin 2, .fin 0, .fin 10, .fin 20⟩,
      ⟨.fin 3, .fin 4, .fin 0, .fin 10, .fin 20⟩]⟩).rings.map (fun r => (r.inner, r.outer)) =
    [(.fin (1/2), .fin 1), (.fin 1, .fin 2), (.fin 3, .fin 4)] := by
  decide +kernel

end Beyonce
