import Verif.Props.Solutions

/-!
# C45: exactly what `extract_solutions` returns

Whatever the fits are: finite, infinite or NaN.
-/

set_option linter.unusedSectionVars false

namespace Beyonce
open Spec

section
variable {K : Type} [Field K] [LinearOrder K] [IsStrictOrderedRing K] [RealFns K] [FloorRing K]

/-! ## The loop on a list of fits -/

/-- A fit that can be compared: neither NaN nor infinity. -/
def Spec.Usable (x : XF K) : Prop := x ≠ .nan ∧ x ≠ .pinf

/-- Element `i` comes before `j`: smaller fit, or the same fit and earlier in the grid. -/
def Spec.Ahead (w : ℕ → XF K) (i j : ℕ) : Prop := Less (w i) (w j) ∨ (w i = w j ∧ i < j)

/-- `n` times the best element, with its fit, which is then set to NaN. -/
def drains : ℕ → List (XF K) → Except Err (List (ℕ × XF K))
  | 0, _ => .ok []
  | n + 1, l => match nanargmin l with
    | .error e => .error e
    | .ok i => match drains n (l.set i .nan) with
      | .error e => .error e
      | .ok r => .ok ((i, l.getD i .nan) :: r)

theorem getD_lt (l : List (XF K)) (i : ℕ) (h : i < l.length) : l.getD i .nan = l[i] := by
  rw [List.getD_eq_getElem?_getD, List.getElem?_eq_getElem h, Option.getD_some]

theorem getD_mem_of_usable {l : List (XF K)} {i : ℕ} (h : Usable (l.getD i .nan)) :
    i < l.length ∧ l.getD i .nan ∈ l := by
  have : i < l.length := by
    by_contra hc
    rw [List.getD_eq_getElem?_getD, List.getElem?_eq_none (by omega)] at h
    exact h.1 rfl
  refine ⟨this, ?_⟩
  rw [getD_lt _ _ this]
  exact List.getElem_mem this

theorem drain_step (l : List (XF K)) (hex : ∃ j, Usable (l.getD j .nan)) :
    ∃ i, nanargmin l = .ok i ∧ Usable (l.getD i .nan) ∧
      ∀ j, Usable (l.getD j .nan) → j ≠ i → Ahead (fun k => l.getD k .nan) i j := by
  obtain ⟨j, hj⟩ := hex
  obtain ⟨i, hi⟩ : ∃ i, nanargmin l = .ok i := by
    cases h : nanargmin l with
    | ok i => exact ⟨i, rfl⟩
    | error e => exact absurd (((nanargmin_error _ _).1 h).2 _ (getD_mem_of_usable hj).2) hj.1
  obtain ⟨h1, h2, h3⟩ := nanargmin_ok _ _ hi
  have hle : ∀ j, Usable (l.getD j .nan) → XF.le (l.getD i .nan) (l.getD j .nan) = true := by
    intro j hj
    rcases h2 _ (getD_mem_of_usable hj).2 with h | h | h
    · exact absurd h hj.1
    · exact h
    · exact absurd h.2 hj.2
  have hiu : Usable (l.getD i .nan) := by
    have := hle j hj
    generalize l.getD i .nan = x at this
    generalize l.getD j .nan = y at this hj
    refine ⟨?_, ?_⟩
    · rintro rfl; simp [XF.le] at this
    · rintro rfl
      cases y <;> simp [XF.le] at this
      exact hj.2 rfl
  refine ⟨i, hi, hiu, fun k hk hki => ?_⟩
  unfold Ahead
  rw [less_iff]
  rcases Nat.lt_or_ge k i with hlt | hge
  · exact Or.inl ((h3 k hlt).2.resolve_left hk.1)
  · have := hle k hk
    simp only
    generalize l.getD i .nan = x at this hiu
    generalize l.getD k .nan = y at this hk
    by_cases he : x = y
    · exact Or.inr ⟨he, by omega⟩
    · left
      cases x <;> cases y <;> simp_all [XF.le, XF.lt]
      exact lt_of_le_of_ne this he

theorem getD_set (l : List (XF K)) (i j : ℕ) :
    (l.set i XF.nan).getD j .nan = if j = i then .nan else l.getD j .nan := by
  rw [List.getD_eq_getElem?_getD, List.getElem?_set]
  split_ifs <;> first | rfl | omega | simp_all [List.getD_eq_getElem?_getD]

/-- The usable fits come first, in order. -/
theorem drains_usable : ∀ (n : ℕ) (l : List (XF K)), ∃ (a : List ℕ) (l' : List (XF K)),
    a.length ≤ n ∧ a.Nodup ∧ (∀ i ∈ a, Usable (l.getD i .nan)) ∧
    a.Pairwise (Ahead fun k => l.getD k .nan) ∧
    (∀ i ∈ a, ∀ j, Usable (l.getD j .nan) → j ∉ a → Ahead (fun k => l.getD k .nan) i j) ∧
    (a.length = n ∨ ∀ j, Usable (l.getD j .nan) → j ∈ a) ∧
    l'.length = l.length ∧ (∀ j, l'.getD j .nan = if j ∈ a then .nan else l.getD j .nan) ∧
    drains n l = (drains (n - a.length) l').map (a.map (fun i => (i, l.getD i .nan)) ++ ·)
  | 0, l => ⟨[], l, le_rfl, .nil, by simp, .nil, by simp, Or.inl rfl, rfl, by simp, by simp [drains, Except.map]⟩
  | n + 1, l => by
    by_cases hex : ∃ j, Usable (l.getD j .nan)
    · obtain ⟨i, h1, h2, h3⟩ := drain_step l hex
      obtain ⟨a, l', g1, g2, g3, g4, g5, g6, g7, g8, g9⟩ := drains_usable n (l.set i .nan)
      have hu : ∀ j, Usable ((l.set i XF.nan).getD j .nan) ↔ j ≠ i ∧ Usable (l.getD j .nan) := by
        intro j
        rw [getD_set]
        split_ifs with h
        · simp [h, Usable]
        · simp [h]
      have hne : ∀ j ∈ a, j ≠ i ∧ Usable (l.getD j .nan) := fun j hj => (hu j).1 (g3 j hj)
      have hahead : ∀ j k, j ≠ i → k ≠ i → Ahead (fun k => (l.set i XF.nan).getD k .nan) j k →
          Ahead (fun k => l.getD k .nan) j k := by
        intro j k hj hk h
        unfold Ahead at h ⊢
        simp only [getD_set, if_neg hj, if_neg hk] at h
        exact h
      refine ⟨i :: a, l', by simp; omega, List.nodup_cons.2 ⟨fun h => (hne i h).1 rfl, g2⟩, ?_, ?_, ?_, ?_,
        by simpa using g7, ?_, ?_⟩
      · intro j hj
        rcases List.mem_cons.1 hj with rfl | hj
        · exact h2
        · exact (hne j hj).2
      · refine .cons (fun j hj => h3 j (hne j hj).2 (hne j hj).1) (g4.imp_of_mem ?_)
        intro j k hj hk h
        exact hahead j k (hne j hj).1 (hne k hk).1 h
      · intro j hj k hk hka
        simp only [List.mem_cons, not_or] at hka
        rcases List.mem_cons.1 hj with rfl | hj
        · exact h3 k hk hka.1
        · exact hahead j k (hne j hj).1 hka.1 (g5 j hj k ((hu k).2 ⟨hka.1, hk⟩) hka.2)
      · rcases g6 with h | h
        · exact Or.inl (by simp [h])
        · right
          intro j hj
          by_cases hji : j = i
          · simp [hji]
          · exact List.mem_cons_of_mem _ (h j ((hu j).2 ⟨hji, hj⟩))
      · intro j
        rw [g8, getD_set]
        simp only [List.mem_cons]
        split_ifs <;> simp_all
      · have hmap : a.map (fun j => (j, (l.set i XF.nan).getD j .nan)) = a.map (fun j => (j, l.getD j .nan)) := by
          apply List.map_congr_left
          intro j hj
          rw [getD_set, if_neg (hne j hj).1]
        rw [hmap] at g9
        simp only [drains, h1, g9, List.length_cons, Nat.add_sub_add_right, List.map_cons, List.cons_append]
        cases drains (n - a.length) l' <;> rfl
    · refine ⟨[], l, by simp, .nil, by simp, .nil, by simp, Or.inr fun j hj => absurd ⟨j, hj⟩ hex, rfl,
        by simp, ?_⟩
      simp only [List.length_nil, Nat.sub_zero, List.map_nil, List.nil_append]
      cases drains (n + 1) l <;> rfl

theorem mem_getD {l : List (XF K)} {x : XF K} (h : x ∈ l) : ∃ i, i < l.length ∧ l.getD i .nan = x := by
  obtain ⟨i, hi, rfl⟩ := List.mem_iff_getElem.1 h
  exact ⟨i, hi, getD_lt _ _ hi⟩

/-- Without usable fits it is element 0 as long as an infinite fit remains. -/
theorem drains_infinite (m : ℕ) (l : List (XF K)) (h : ∀ j, ¬ Usable (l.getD j .nan)) :
    ((∃ j, j ≠ 0 ∧ l.getD j .nan = .pinf) →
      drains (m + 1) l = .ok ((0, l.getD 0 .nan) :: List.replicate m (0, .nan))) ∧
    ((∀ j, l.getD j .nan = .pinf → j = 0) →
      drains (m + 1) l = if m = 0 ∧ l.getD 0 .nan = .pinf then .ok [(0, .pinf)] else .error .valueError) := by
  have hall : ∀ x ∈ l, x = .pinf ∨ x = .nan := by
    intro x hx
    obtain ⟨i, -, rfl⟩ := mem_getD hx
    by_contra hc
    push Not at hc
    exact h i ⟨hc.2, hc.1⟩
  have hset : ∀ j, ¬ Usable ((l.set 0 XF.nan).getD j .nan) := by
    intro j
    rw [getD_set]
    split_ifs
    · exact fun hu => hu.1 rfl
    · exact h j
  have hmem : ∀ j, l.getD j .nan = .pinf → XF.pinf ∈ l := by
    intro j hj
    have hlt : j < l.length := by
      by_contra hc
      rw [List.getD_eq_getElem?_getD, List.getElem?_eq_none (by omega)] at hj
      cases hj
    rw [← hj, getD_lt _ _ hlt]
    exact List.getElem_mem hlt
  constructor
  · rintro ⟨j, hj0, hj⟩
    have h0 := argmin_infinite l hall (hmem j hj)
    simp only [drains, h0]
    cases m with
    | zero => simp [drains]
    | succ m =>
      rw [(drains_infinite m (l.set 0 .nan) hset).1 ⟨j, hj0, by rw [getD_set, if_neg hj0, hj]⟩]
      simp only [getD_set, if_true, List.replicate_succ]
  · intro honly
    by_cases hp : l.getD 0 .nan = .pinf
    · have h0 := argmin_infinite l hall (hmem 0 hp)
      simp only [drains, h0, hp]
      cases m with
      | zero => simp [drains]
      | succ m =>
        rw [(drains_infinite m (l.set 0 .nan) hset).2 (fun j hj => by
          rw [getD_set] at hj
          split_ifs at hj with hj0
          exact absurd (honly j hj) hj0)]
        rw [if_neg (by rw [getD_set]; simp), if_neg (by simp)]
    · have hnan : ∀ x ∈ l, x = .nan := by
        intro x hx
        rcases hall x hx with rfl | h'
        · obtain ⟨i, -, hi⟩ := mem_getD hx
          rw [honly i hi] at hi
          exact absurd hi hp
        · exact h'
      simp only [drains, (nanargmin_error l .valueError).2 ⟨rfl, hnan⟩]
      rw [if_neg fun hc => hp hc.2]

/-! ## The loop of the method -/

/-- The row reports the grid point of element `i`; its disk if no mask covers it. -/
def Spec.RowAt (s : Shallot K) (i : ℕ) (row : Shallot.Solution K) : Prop :=
  ∃ y x r, y < s.params.gridShape.1 ∧ x < s.params.gridShape.2.1 ∧ r < s.params.gridShape.2.2 ∧
    flat s y x r = i ∧ s.params.dx.data[x]? = some row.dx ∧ s.params.dy.data[y]? = some row.dy ∧
    (¬ MaskedAt s i → s.diskRadius.data.data[i]? = some row.diskRadius ∧
      s.inclination.data.data[i]? = some row.inclination ∧ s.tilt.data.data[i]? = some row.tilt)

theorem solution_any (s t : Shallot K) (ht : Drained s t) (q : GProp K) (hq : t.gradientFit = some q)
    (hlen : q.data.data.length = elements s) (i : ℕ) (hi : nanargmin q.data.data = .ok i) :
    ∃ row t', Shallot.solution t = (.ok row, t') ∧ row.rms = q.data.data.getD i .nan ∧ RowAt s i row ∧
      Drained s t' ∧
      t'.gradientFit = some { q with data := ⟨q.data.shape, q.data.data.set i .nan⟩ } := by
  obtain ⟨h1, -, -⟩ := nanargmin_ok _ _ hi
  rw [hlen] at h1
  have hun := unravel_spec (a := s.params.gridShape.1) (b := s.params.gridShape.2.1)
    (c := s.params.gridShape.2.2) h1
  obtain ⟨⟨y, x, r⟩, hyxr⟩ : ∃ u, u = unravel s.params.gridShape.2.1 s.params.gridShape.2.2 i := ⟨_, rfl⟩
  rw [← hyxr] at hun
  simp only at hun
  obtain ⟨hy, hx, hr, hfl⟩ := hun
  have hpar := ht.params
  obtain ⟨pt, t1, g1, g2, g3, g4⟩ := C74_point t ht.sound ht.diagnostic false y x r (.npInt .w64 y)
    (.npInt .w64 x) (.npInt .w64 r) (.np _ _) (.np _ _) (.np _ _) (by rw [hpar]; exact hy)
    (by rw [hpar]; exact hx) (by rw [hpar]; exact hr)
  have hfl' : flat t y x r = i := by unfold flat; rw [hpar]; exact hfl
  have hs1 : Sound t1 := by
    have := gridPoint_sound (.npInt .w64 y) (.npInt .w64 x) (.npInt .w64 r) (.bool false) t ht.sound
    rwa [g1] at this
  have hdr1 : Drained s t1 := ht.trans (.of_faded g2 hs1 ht.diagnostic)
  have hq1 : t1.prop .gradientFit = some q := g3.trans hq
  obtain ⟨q', hq'⟩ : ∃ q', q' = { q with data := ⟨q.data.shape, q.data.data.set i .nan⟩ } := ⟨_, rfl⟩
  have her : Shallot.onProp .gradientFit (Shallot.eraseAt i) t1 = (.ok (), t1.setProp q' .gradientFit) :=
    onProp_ok .gradientFit _ t1 q q' () hq1 (by rw [hq']; rfl)
  refine ⟨⟨q.data.data.getD i .nan, pt.diskRadius, pt.inclination, pt.tilt, pt.dx, pt.dy⟩,
    t1.setProp q' .gradientFit, ?_, rfl, ?_, ?_, by rw [← hq']; rfl⟩
  · unfold Shallot.solution
    rw [Meth.get_bind, hq]
    simp only
    rw [hi, Meth.lift_ok_bind, hpar, ← hyxr]
    simp only
    rw [bind_ok _ _ _ _ _ g1, bind_ok _ _ _ _ _ her]
    rfl
  · have a4 := g4.dx
    have a5 := g4.dy
    rw [hpar] at a4 a5
    refine ⟨y, x, r, hy, hx, hr, hfl, a4, a5, fun hm => ?_⟩
    have hnm : ¬ MaskedAt t i := by rwa [ht.maskedAt]
    have hc := ht.cubes i hm
    have a1 := g4.diskRadius.2 (by
      rw [hfl']; rintro (h | ⟨h, -⟩)
      · exact hnm (Or.inl h)
      · cases h)
    have a2 := g4.inclination.2 (by
      rw [hfl']; rintro (h | ⟨h, -⟩)
      · exact hnm (Or.inr (Or.inl h))
      · cases h)
    have a3 := g4.tilt.2 (by
      rw [hfl']; rintro (h | ⟨h, -⟩)
      · exact hnm (Or.inr (Or.inr (Or.inl h)))
      · cases h)
    rw [hfl'] at a1 a2 a3
    exact ⟨hc.1 ▸ a1, hc.2.1 ▸ a2, hc.2.2 ▸ a3⟩
  · have hsh := hs1.props _ _ hq1
    exact ⟨sound_setProp hs1 _ _ (inShape_of hsh (by rw [hq']) (by rw [hq']; simp) (by rw [hq'])),
      hdr1.params, hdr1.masks, hdr1.diagnostic, hdr1.cubes⟩

theorem solutionLoop_drains (s : Shallot K) : ∀ (n : ℕ) (t : Shallot K) (q : GProp K), Drained s t →
    t.gradientFit = some q → q.data.data.length = elements s →
    (∀ e, drains n q.data.data = .error e → ∃ t', Shallot.solutionLoop n t = (.error e, t')) ∧
    ∀ ps, drains n q.data.data = .ok ps → ∃ rows t', Shallot.solutionLoop n t = (.ok rows, t') ∧
      List.Forall₂ (fun p row => row.rms = p.2 ∧ RowAt s p.1 row) ps rows
  | 0, t, q, _, _, _ => by
    refine ⟨fun e h => (by cases h), fun ps h => ?_⟩
    cases h
    exact ⟨[], t, rfl, .nil⟩
  | n + 1, t, q, ht, hq, hlen => by
    cases hi : nanargmin q.data.data with
    | error e =>
      have hsol : Shallot.solution t = (.error e, t) := by
        unfold Shallot.solution
        rw [Meth.get_bind, hq]
        simp only
        rw [hi]
        rfl
      refine ⟨fun e' h => ?_, fun ps h => ?_⟩
      · simp only [drains, hi] at h
        cases h
        refine ⟨t, ?_⟩
        unfold Shallot.solutionLoop
        rw [bind_err _ _ _ _ _ hsol]
      · simp only [drains, hi] at h
        cases h
    | ok i =>
      obtain ⟨row, t1, h1, h2, h3, h4, h5⟩ := solution_any s t ht q hq hlen i hi
      obtain ⟨g1, g2⟩ := solutionLoop_drains s n t1 _ h4 h5 (by simpa using hlen)
      simp only [drains, hi]
      cases hr : drains n (q.data.data.set i .nan) with
      | error e =>
        refine ⟨fun e' h => ?_, fun ps h => by cases h⟩
        cases h
        obtain ⟨t', ht'⟩ := g1 e hr
        refine ⟨t', ?_⟩
        unfold Shallot.solutionLoop
        rw [bind_ok _ _ _ _ _ h1, bind_err _ _ _ _ _ ht']
      | ok r =>
        refine ⟨fun e' h => (by cases h), fun ps h => ?_⟩
        cases h
        obtain ⟨rows, t', ht', hf⟩ := g2 r hr
        refine ⟨row :: rows, t', ?_, .cons ⟨h2, h3⟩ hf⟩
        unfold Shallot.solutionLoop
        rw [bind_ok _ _ _ _ _ h1, bind_ok _ _ _ _ _ ht']
        rfl

/-! ## The method -/

open Classical in
/-- The fit of element `i` as the method sees it: NaN under a mask. -/
noncomputable def Spec.fitSeen (s : Shallot K) (p : GProp K) (i : ℕ) : XF K :=
  if Marked p.mask i ∨ MaskedAt s i then .nan else p.data.data.getD i .nan

/-- The elements in the order of their fits, as far as there are any: no usable one is left out in
favour of a worse one. -/
structure Spec.BestOf (w : ℕ → XF K) (a : List ℕ) : Prop where
  nodup : a.Nodup
  usable : ∀ i ∈ a, Usable (w i)
  sorted : a.Pairwise (Ahead w)
  best : ∀ i ∈ a, ∀ j, Usable (w j) → j ∉ a → Ahead w i j

/-- **C45** Exactly what `extract_solutions` does when it is asked for `k` solutions, whatever the
fits are.  First come the usable fits, in order.  When there are fewer than `k` of them, the rest of
the rows all report element 0 of the grid, the first one with an infinite rms if that is its fit, the
others with NaN; but if the only infinite fit is that of element 0, it is reported once, and one
solution more than that raises `ValueError`. -/
theorem C45_exact (s : Shallot K) (hs : Sound s) (hd : s.diagnosticMap ≠ none) (p : GProp K)
    (hp : s.gradientFit = some p) (num : PyVal K) (k : ℕ) (ha : AsksFor s num k)
    (hk : k ≤ (unmasked s).card) :
    ∃ a m, a.length + m = k ∧ BestOf (fitSeen s p) a ∧
      (m = 0 ∨ ∀ j, Usable (fitSeen s p j) → j ∈ a) ∧
      ((∃ rows s', Shallot.extractSolutions num s = (.ok rows, s') ∧
        (m = 0 ∨ (∃ j, j ≠ 0 ∧ fitSeen s p j = .pinf) ∨ (m = 1 ∧ fitSeen s p 0 = .pinf)) ∧
        List.Forall₂ (fun q row => row.rms = q.2 ∧ RowAt s q.1 row)
          (a.map (fun i => (i, fitSeen s p i)) ++
            (List.range m).map (fun n => (0, if n = 0 ∧ fitSeen s p 0 = .pinf then .pinf else .nan))) rows) ∨
      ((∃ s', Shallot.extractSolutions num s = (.error .valueError, s')) ∧
        m ≠ 0 ∧ (∀ j, fitSeen s p j = .pinf → j = 0) ∧ ¬ (m = 1 ∧ fitSeen s p 0 = .pinf))) := by
  obtain ⟨m, hm1, -, hm3, hm4⟩ := C38_union s hs
  obtain ⟨d, h1, h2, h3, h4⟩ := getCube_masked s hs .gradientFit p hp
  have hlen : p.data.data.length = elements s := (hs.props .gradientFit p hp).data.2
  have hget : Shallot.getGradientFit (.bool true) (.bool true) s =
      (.ok (some d), s.setProp { p with data := d } .gradientFit) := by
    unfold Shallot.getGradientFit
    rw [Meth.get_bind, if_neg (by rw [hp]; simp), bind_ok _ _ _ _ _ h1]
    rfl
  have hf := getGradientFit_faded (.bool true) (.bool true) s
  have hs0 := getGradientFit_sound (.bool true) (.bool true) s hs
  rw [hget] at hf hs0
  have hdr : Drained s (s.setProp { p with data := d } .gradientFit) := .of_faded hf hs0 hd
  have hrun : Shallot.extractSolutions num s =
      Shallot.solutionLoop k (s.setProp { p with data := d } .gradientFit) := by
    unfold Shallot.extractSolutions
    rw [Meth.get_bind, hm1, Meth.lift_ok_bind, solutionCount_ok s m num k (count_unmasked s m hm3 hm4) ha hk,
      Meth.lift_ok_bind, bind_ok _ _ _ _ _ hget]
  have hw : ∀ i, d.data.getD i .nan = fitSeen s p i := by
    intro i
    unfold fitSeen
    by_cases hi : i < p.data.data.length
    · split_ifs with hm
      · rw [List.getD_eq_getElem?_getD, (h4 i hi).1 hm]; rfl
      · rw [List.getD_eq_getElem?_getD, (h4 i hi).2 hm, List.getD_eq_getElem?_getD]
    · rw [List.getD_eq_getElem?_getD, List.getD_eq_getElem?_getD, List.getElem?_eq_none (by omega),
        List.getElem?_eq_none (by omega)]
      simp
  obtain ⟨g1, g2⟩ := solutionLoop_drains s k _ { p with data := d } hdr rfl (h3.trans hlen)
  simp only at g1 g2
  rw [← hrun] at g1 g2
  obtain ⟨a, l', b1, b2, b3, b4, b5, b6, b7, b8, b9⟩ := drains_usable k d.data
  have hwf : (fun k => d.data.getD k .nan) = fitSeen s p := funext hw
  simp only [hw] at b3 b5 b6 b8
  have hmap : a.map (fun i => (i, d.data.getD i .nan)) = a.map (fun i => (i, fitSeen s p i)) := by
    simp only [hw]
  rw [hmap] at b9
  rw [← hwf]
  refine ⟨a, k - a.length, by omega, ⟨b2, by simpa only [hw] using b3, b4, by simpa only [hw] using b5⟩, ?_, ?_⟩
  · simp only [hw]
    rcases b6 with h | h
    · exact Or.inl (by omega)
    · exact Or.inr h
  simp only [hw]
  cases hmk : k - a.length with
  | zero =>
    rw [hmk] at b9
    left
    obtain ⟨rows, s', e1, e2⟩ := g2 _ b9
    exact ⟨rows, s', e1, Or.inl rfl, by simpa using e2⟩
  | succ m =>
    rw [hmk] at b9
    have hall := b6.resolve_left (by omega)
    have hno : ∀ j, ¬ Usable (l'.getD j .nan) := by
      intro j hj
      rw [b8] at hj
      split_ifs at hj with hja
      · exact hj.1 rfl
      · exact hja (hall j hj)
    have hinf : ∀ j, l'.getD j .nan = .pinf ↔ fitSeen s p j = .pinf := by
      intro j
      rw [b8]
      split_ifs with hja
      · refine ⟨fun h => (by cases h), fun h => absurd h (b3 j hja).2⟩
      · rfl
    have h0 : l'.getD 0 .nan = if fitSeen s p 0 = .pinf then .pinf else .nan := by
      split_ifs with hc
      · exact (hinf 0).2 hc
      · have := hno 0
        unfold Usable at this
        by_contra hne
        exact this ⟨hne, fun h => hc ((hinf 0).1 h)⟩
    obtain ⟨c1, c2⟩ := drains_infinite m l' hno
    by_cases hj : ∃ j, j ≠ 0 ∧ fitSeen s p j = .pinf
    · left
      rw [c1 (by obtain ⟨j, h, h'⟩ := hj; exact ⟨j, h, (hinf j).2 h'⟩), h0] at b9
      obtain ⟨rows, s', e1, e2⟩ := g2 _ b9
      refine ⟨rows, s', e1, Or.inr (Or.inl hj), ?_⟩
      have : (List.range (m + 1)).map (fun n => ((0 : ℕ), if n = 0 ∧ fitSeen s p 0 = .pinf then XF.pinf else (.nan : XF K))) =
          (0, if fitSeen s p 0 = .pinf then .pinf else .nan) :: List.replicate m (0, (.nan : XF K)) := by
        rw [List.range_succ_eq_map, List.map_cons, List.map_map]
        congr 1
        · simp
        · rw [List.eq_replicate_iff]
          simp
      rw [this]
      exact e2
    · push Not at hj
      have honly : ∀ j, fitSeen s p j = .pinf → j = 0 := by
        intro j h
        by_contra h'
        exact hj j h' h
      rw [c2 (fun j h => honly j ((hinf j).1 h))] at b9
      by_cases hm0 : m = 0 ∧ fitSeen s p 0 = .pinf
      · left
        rw [if_pos ⟨hm0.1, (hinf 0).2 hm0.2⟩] at b9
        obtain ⟨rows, s', e1, e2⟩ := g2 _ b9
        refine ⟨rows, s', e1, Or.inr (Or.inr ⟨by omega, hm0.2⟩), ?_⟩
        obtain ⟨rfl, h⟩ := hm0
        simpa [h, List.range_succ] using e2
      · right
        rw [if_neg (fun h => hm0 ⟨h.1, (hinf 0).1 h.2⟩)] at b9
        obtain ⟨s', e1⟩ := g1 _ b9
        exact ⟨⟨s', e1⟩, by omega, honly, fun h => hm0 ⟨by omega, h.2⟩⟩

/-- The hypotheses of `C45_best_partial`, met by the grid with one measurement in Solved.lean, contain
those of `C45_exact`; where all fits are finite it says the same. -/
example (s : Shallot K) (hs : Sound s) (hd : s.diagnosticMap ≠ none) (v : ℕ → K) (hv : FitIs s v)
    (num : PyVal K) (k : ℕ) (ha : AsksFor s num k) (hk : k ≤ (unmasked s).card) :
    ∃ p, s.gradientFit = some p ∧ ∃ a m, a.length + m = k ∧ BestOf (fitSeen s p) a ∧
      (m = 0 ∨ ∀ j, Usable (fitSeen s p j) → j ∈ a) := by
  obtain ⟨p, hp, -⟩ := hv
  obtain ⟨a, m, h1, h2, h3, -⟩ := C45_exact s hs hd p hp num k ha hk
  exact ⟨p, hp, a, m, h1, h2, h3⟩

end

/-- Four solutions of five elements with two infinite fits: two usable ones, then element 0 twice;
without the second infinite fit the fourth raises. -/
example : drains 4 [.pinf, .fin 3, .nan, .fin 1, .pinf] =
      .ok [(3, .fin (1 : ℚ)), (1, .fin 3), (0, .pinf), (0, .nan)] ∧
    drains 4 [.pinf, .fin (3 : ℚ), .nan, .fin 1, .nan] = .error .valueError := by
  decide +kernel

end Beyonce
