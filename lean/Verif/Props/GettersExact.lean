import Verif.Props.Getters

/-!
# Property C43, exactly: which elements the getters turn into NaN
-/

set_option linter.unusedSectionVars false

namespace Beyonce
open Spec

section
variable {K : Type} [Field K] [LinearOrder K] [IsStrictOrderedRing K]

/-- Element `i` of cube `c`. -/
def Spec.Holds (s : Shallot K) (c : Cube) (i : ℕ) (x : XF K) : Prop :=
  ∃ p, s.prop c = some p ∧ p.data.data[i]? = some x

/-- A getter called with these two flags writes to element `i` of cube `c`: either the mask of the cube marks it and
`property_masked` is true, or one of the masks that are combined marks it and `masked` is true. -/
def Spec.Erases (s : Shallot K) (c : Cube) (i : ℕ) (masked propertyMasked : PyVal K) : Prop :=
  (propertyMasked = .bool true ∧ ∃ p, s.prop c = some p ∧ Marked p.mask i) ∨
    ((∃ b, propertyMasked = .bool b) ∧ masked = .bool true ∧ MaskedAt s i)

theorem boolean_bool {v : PyVal K} {b : Bool} (h : boolean v = .ok b) : v = .bool b := by
  cases v <;> simp [boolean, classObject, isinstance, bind, Except.bind] at h
  exact congrArg _ h

theorem getData_effect (w : PyVal K) (p : GProp K) (hp : ∀ m, p.mask = some m → m.shape = p.data.shape) :
    ((∃ b, w = .bool b) → ∃ d, (GProp.getData w p).1 = .ok d) ∧
    ((¬ ∃ b, w = .bool b) → ∃ e, GProp.getData w p = (.error e, p)) ∧
    ∀ i < p.data.data.length, (w = .bool true ∧ Marked p.mask i →
        (GProp.getData w p).2.data.data[i]? = some .nan) ∧
      (¬ (w = .bool true ∧ Marked p.mask i) → (GProp.getData w p).2.data.data[i]? = p.data.data[i]?) := by
  cases hb : boolean w with
  | error e =>
    have h : GProp.getData w p = (.error e, p) := by
      unfold GProp.getData
      rw [hb]
      rfl
    have hw : ¬ ∃ b, w = .bool b := by
      rintro ⟨b, rfl⟩
      cases hb
    rw [h]
    exact ⟨fun h => absurd h hw, fun _ => ⟨e, rfl⟩, fun i _ => ⟨fun h => absurd ⟨_, h.1⟩ hw, fun _ => rfl⟩⟩
  | ok b =>
    obtain rfl := boolean_bool hb
    cases b with
    | false =>
      rw [C30_unmasked_read p false (Or.inl rfl)]
      exact ⟨fun _ => ⟨_, rfl⟩, fun h => absurd ⟨_, rfl⟩ h, fun i _ => ⟨fun h => by simp at h, fun _ => rfl⟩⟩
    | true =>
      by_cases hn : p.mask = none
      · rw [C30_unmasked_read p true (Or.inr hn)]
        refine ⟨fun _ => ⟨_, rfl⟩, fun h => absurd ⟨_, rfl⟩ h, fun i _ => ⟨?_, fun _ => rfl⟩⟩
        rintro ⟨-, k, hk, -⟩
        rw [hn] at hk
        cases hk
      · obtain ⟨k, hk⟩ := Option.ne_none_iff_exists'.1 hn
        have hd : GProp.getData (.bool true) p = (.ok ⟨p.data.shape, putWhere .nan k.data p.data.data⟩,
            { p with data := ⟨p.data.shape, putWhere .nan k.data p.data.data⟩ }) := by
          have hsh := hp k hk
          unfold GProp.getData
          rw [hb, Meth.lift_ok_bind, Meth.get_bind]
          obtain ⟨a1, a2, a3, a4, a5, a6, a7, a8, a9⟩ := p
          simp only at hk hsh
          subst hk
          simp only [if_pos hsh]
          rfl
        rw [hd]
        refine ⟨fun _ => ⟨_, rfl⟩, fun h => absurd ⟨_, rfl⟩ h, fun i hi => ⟨?_, fun h => ?_⟩⟩
        · rintro ⟨-, k', hk', h⟩
          rw [hk] at hk'
          cases hk'
          exact (putWhere_get _ _ _ i).1 h hi
        · exact (putWhere_get _ _ _ i).2 fun h' => h ⟨rfl, k, hk, h'⟩

theorem getCube_others (c c' : Cube) (hc : c' ≠ c) (v w : PyVal K) (s : Shallot K) :
    (Shallot.getCube c v w s).2.prop c' = s.prop c' := by
  have pre : Pre (fun a b : Shallot K => b.prop c' = a.prop c') := ⟨fun _ => rfl, fun h h' => h'.trans h⟩
  have hon : ∀ {α : Type} (m : Meth (GProp K) α),
      Moves (fun a b : Shallot K => b.prop c' = a.prop c') (Shallot.onProp c m) := by
    intro α m s
    unfold Shallot.onProp
    cases h : s.prop c with
    | none => rfl
    | some p => exact (setProp_prop _ _ _ _).trans (if_neg hc)
  have : Moves (fun a b : Shallot K => b.prop c' = a.prop c') (Shallot.getCube c v w) := by
    unfold Shallot.getCube
    refine Moves.bind pre (hon _) fun d => ?_
    refine Moves.bind pre (Moves.lift pre _) fun b => ?_
    split_ifs
    · refine Moves.get_bind fun s => ?_
      cases hm : s.combinedMask with
      | error e => rfl
      | ok m =>
        rw [Meth.lift_ok_bind]
        exact hon _ s
    · exact Moves.pure pre d
  exact this s

/-- What one call of a getter does to its cube. -/
theorem getCube_effect (c : Cube) (v w : PyVal K) (s : Shallot K) (hs : Sound s) (i : ℕ) (x : XF K)
    (hx : Holds s c i x) :
    (Erases s c i v w → Holds (Shallot.getCube c v w s).2 c i .nan) ∧
    (¬ Erases s c i v w → Holds (Shallot.getCube c v w s).2 c i x) := by
  obtain ⟨p, hp, hx⟩ := hx
  have hi : i < p.data.data.length := (List.getElem?_eq_some_iff.1 hx).1
  have hsh := hs.props c p hp
  obtain ⟨e1, e2, e3⟩ := getData_effect w p fun m hm => by rw [(hsh.mask m hm).1, hsh.data.1]
  have hE : Erases s c i v w ↔ (w = .bool true ∧ Marked p.mask i) ∨
      ((∃ b, w = .bool b) ∧ v = .bool true ∧ MaskedAt s i) := by
    unfold Erases
    rw [hp]
    simp
  obtain ⟨q, hq⟩ : ∃ q, q = (GProp.getData w p).2 := ⟨_, rfl⟩
  rw [← hq] at e3
  obtain ⟨k1, k2⟩ := e3 i hi
  have hfst : (Shallot.onProp c (GProp.getData w) s) = ((GProp.getData w p).1, s.setProp q c) := by
    unfold Shallot.onProp
    rw [hp, hq]
  obtain ⟨s1, hs1⟩ : ∃ s1, s1 = s.setProp q c := ⟨_, rfl⟩
  rw [← hs1] at hfst
  have hp1 : s1.prop c = some q := by rw [hs1, setProp_prop, if_pos rfl]
  by_cases hw : ∃ b, w = .bool b
  · obtain ⟨d, hd⟩ := e1 hw
    rw [hd] at hfst
    have hcube : Shallot.getCube c v w s = (Meth.lift (boolean v) >>= fun masked =>
        if masked then (do
          let self ← Meth.get
          let m ← Meth.lift self.combinedMask
          Shallot.onProp c (Shallot.nanWhere m))
        else pure d) s1 := by
      unfold Shallot.getCube
      rw [bind_ok _ _ _ _ _ hfst]
    by_cases hv : v = .bool true
    · subst hv
      have hfade : Faded s s1 := by
        have := onProp_getData_faded c w s
        rwa [hfst] at this
      have hsound : Sound s1 := by
        have := onProp_sound c _ (getData_shape w) s hs
        rwa [hfst] at this
      obtain ⟨m, hm, hm1, hm2, hm3⟩ := C38_union s1 hsound
      have hmi : m.data[i]? = some true ↔ MaskedAt s i := by rw [hm3, hfade.maskedAt]
      have hshq := hsound.props c q hp1
      have hshape : m.shape = q.data.shape := by rw [hm1, hshq.data.1]
      have hlen : i < q.data.data.length := by
        by_cases h : w = .bool true ∧ Marked p.mask i
        · exact (List.getElem?_eq_some_iff.1 (k1 h)).1
        · exact (List.getElem?_eq_some_iff.1 ((k2 h).trans hx)).1
      have hnan : Shallot.nanWhere m q = (.ok (q.data.putNan m), { q with data := q.data.putNan m }) := by
        unfold Shallot.nanWhere
        rw [Meth.get_bind]
        simp only [if_pos hshape]
        rfl
      have hfin : (Shallot.getCube c (.bool true) w s).2.prop c = some { q with data := q.data.putNan m } := by
        rw [hcube]
        have : boolean (K := K) (.bool true) = .ok true := rfl
        rw [this, Meth.lift_ok_bind]
        simp only [if_true, Meth.get_bind]
        rw [hm, Meth.lift_ok_bind]
        unfold Shallot.onProp
        rw [hp1]
        simp only [hnan]
        rw [setProp_prop, if_pos rfl]
      obtain ⟨n1, n2⟩ := putWhere_get XF.nan m.data q.data.data i
      rw [hE]
      refine ⟨fun h => ⟨_, hfin, ?_⟩, fun h => ⟨_, hfin, ?_⟩⟩
      · by_cases hc : MaskedAt s i
        · exact n1 (hmi.2 hc) hlen
        · have h := h.resolve_right fun h => hc h.2.2
          exact (n2 fun h' => hc (hmi.1 h')).trans (k1 h)
      · push Not at h
        have hc : ¬ MaskedAt s i := h.2 hw rfl
        exact ((n2 fun h' => hc (hmi.1 h')).trans (k2 fun h' => h.1 h'.1 h'.2)).trans hx
    · have hfin : (Shallot.getCube c v w s).2 = s1 := by
        rw [hcube]
        cases hb : boolean v with
        | error e => rfl
        | ok b =>
          cases b with
          | true => exact absurd (boolean_bool hb) hv
          | false => rfl
      rw [hE, hfin]
      refine ⟨fun h => ⟨q, hp1, k1 (h.resolve_right fun h => hv h.2.1)⟩, fun h => ⟨q, hp1, ?_⟩⟩
      exact (k2 fun h' => h (Or.inl h')).trans hx
  · obtain ⟨e, he⟩ := e2 hw
    have hfin : (Shallot.getCube c v w s).2 = s1 := by
      rw [he] at hfst
      unfold Shallot.getCube
      rw [bind_err _ _ _ _ _ hfst]
    have hn : ¬ Erases s c i v w := by
      rw [hE]
      rintro (h | h)
      · exact hw ⟨_, h.1⟩
      · exact hw h.1
    rw [hfin]
    exact ⟨fun h => absurd h hn, fun _ => ⟨q, hp1, (k2 fun h => hw ⟨_, h.1⟩).trans hx⟩⟩

variable [RealFns K] [FloorRing K]

/-- **C43, exactly** After any calls of the getters of the cubes, with any arguments and exceptions caught, an element
is NaN if one of these calls erased it, and otherwise what it was before the first.  Which calls erase it depends on
the masks at the start only. -/
theorem C43_exact (ops : List (GridOp K)) (hops : ∀ op ∈ ops, ∃ c v w, op = .get c v w) (s : Shallot K) (hs : Sound s)
    (c : Cube) (i : ℕ) (x : XF K) (hx : Holds s c i x) :
    ((∃ v w, GridOp.get c v w ∈ ops ∧ Erases s c i v w) → Holds (runGrid ops s) c i .nan) ∧
    ((¬ ∃ v w, GridOp.get c v w ∈ ops ∧ Erases s c i v w) → Holds (runGrid ops s) c i x) := by
  induction ops generalizing s x with
  | nil => exact ⟨fun ⟨v, w, h, _⟩ => by simp at h, fun _ => hx⟩
  | cons op ops ih =>
    obtain ⟨c', v', w', rfl⟩ := hops op (by simp)
    have hfade : Faded s (GridOp.exec (.get c' v' w') s) := getCube_faded c' v' w' s
    have hsound := exec_sound (.get c' v' w') s hs
    have hE : ∀ v w, Erases (GridOp.exec (.get c' v' w') s) c i v w ↔ Erases s c i v w := by
      intro v w
      unfold Erases
      rw [hfade.maskedAt]
      refine or_congr_left (and_congr_right fun _ => ?_)
      have := hfade.prop_mask c
      constructor
      · rintro ⟨p, hp, hm⟩
        rw [hp] at this
        obtain ⟨q, hq, hq'⟩ := Option.map_eq_some_iff.1 this.symm
        exact ⟨q, hq, by rw [hq']; exact hm⟩
      · rintro ⟨p, hp, hm⟩
        rw [hp] at this
        obtain ⟨q, hq, hq'⟩ := Option.map_eq_some_iff.1 this
        exact ⟨q, hq, by rw [hq']; exact hm⟩
    have hrun : runGrid (.get c' v' w' :: ops) s = runGrid ops (GridOp.exec (.get c' v' w') s) := rfl
    rw [hrun]
    have key : ∀ y, Holds (GridOp.exec (.get c' v' w') s) c i y → _ := fun y hy =>
      ih (fun o ho => hops o (by simp [ho])) (GridOp.exec (.get c' v' w') s) hsound y hy
    simp only [hE] at key
    by_cases hlater : ∃ v w, GridOp.get c v w ∈ ops ∧ Erases s c i v w
    · have h1 : ∃ y, Holds (GridOp.exec (.get c' v' w') s) c i y := by
        by_cases hc : c = c'
        · subst hc
          by_cases he : Erases s c i v' w'
          · exact ⟨_, (getCube_effect c v' w' s hs i x hx).1 he⟩
          · exact ⟨_, (getCube_effect c v' w' s hs i x hx).2 he⟩
        · obtain ⟨p, hp, hp'⟩ := hx
          exact ⟨x, p, (getCube_others c' c hc v' w' s).trans hp, hp'⟩
      obtain ⟨y, hy⟩ := h1
      refine ⟨fun _ => (key y hy).1 hlater, fun h => absurd ?_ h⟩
      obtain ⟨v, w, h1, h2⟩ := hlater
      exact ⟨v, w, List.mem_cons_of_mem _ h1, h2⟩
    · by_cases hc : c = c' ∧ Erases s c i v' w'
      · obtain ⟨rfl, he⟩ := hc
        have := (getCube_effect c v' w' s hs i x hx).1 he
        exact ⟨fun _ => (key _ this).2 hlater, fun h => absurd ⟨v', w', by simp, he⟩ h⟩
      · have hy : Holds (GridOp.exec (.get c' v' w') s) c i x := by
          by_cases hcc : c = c'
          · subst hcc
            exact (getCube_effect c v' w' s hs i x hx).2 fun he => hc ⟨rfl, he⟩
          · obtain ⟨p, hp, hp'⟩ := hx
            exact ⟨p, (getCube_others c' c hcc v' w' s).trans hp, hp'⟩
        refine ⟨?_, fun _ => (key x hy).2 hlater⟩
        rintro ⟨v, w, h1, h2⟩
        rcases List.mem_cons.1 h1 with h1 | h1
        · cases h1
          exact absurd ⟨rfl, h2⟩ hc
        · exact absurd ⟨v, w, h1, h2⟩ hlater

end

/-- The hypotheses of `C43_exact` are met, and both cases occur: under a Hill mask of 0 on the grid `throwAway`, one
call erases element 25 of the radii and the other three do not. -/
example : ∃ (s : Shallot ℝ) (R : ℝ), Sound s ∧ 0 < R ∧ Holds s .diskRadius 25 (.fin R) ∧
    Holds (runGrid [.get .diskRadius (.bool false) (.bool false), .get .diskRadius (.bool true) (.int 1),
      .get .tilt (.bool true) (.bool true)] s) .diskRadius 25 (.fin R) ∧
    Holds (runGrid [.get .diskRadius (.bool true) (.bool false)] s) .diskRadius 25 .nan := by
  obtain ⟨-, s, -, -, hs, hm, R, hR, hv⟩ := throwAway_masked
  have hh : Holds s .diskRadius 25 (.fin R) := ⟨_, rfl, hv⟩
  refine ⟨s, R, hs, hR, hh, ?_, ?_⟩
  · refine (C43_exact _ ?_ s hs .diskRadius 25 _ hh).2 ?_
    · intro op hop
      simp only [List.mem_cons, List.not_mem_nil, or_false] at hop
      rcases hop with rfl | rfl | rfl <;> exact ⟨_, _, _, rfl⟩
    · rintro ⟨v, w, hmem, he⟩
      simp only [List.mem_cons, List.not_mem_nil, or_false, GridOp.get.injEq, reduceCtorEq, false_and, true_and] at hmem
      rcases hmem with ⟨rfl, rfl⟩ | ⟨rfl, rfl⟩ <;> simp [Erases] at he
  · refine (C43_exact _ ?_ s hs .diskRadius 25 _ hh).1 ⟨.bool true, .bool false, by simp, Or.inr ⟨⟨_, rfl⟩, rfl, hm⟩⟩
    intro op hop
    simp only [List.mem_cons, List.not_mem_nil, or_false] at hop
    subst hop
    exact ⟨_, _, _, rfl⟩

end Beyonce
