import Verif.Props.Rescale

/-!
# C48, C74: `get_grid_point_data`
-/

set_option linter.unusedSectionVars false

namespace Beyonce
open Spec

section
variable {K : Type} [Field K] [LinearOrder K] [IsStrictOrderedRing K] [RealFns K] [FloorRing K]

/-- The flat position of an element. -/
def Spec.flat (s : Shallot K) (y x r : ℕ) : ℕ :=
  (y * s.params.gridShape.2.1 + x) * s.params.gridShape.2.2 + r

/-- `v` is element `i` of the cube as a getter shows it: NaN under the mask of the cube and, if
`masked`, under the combined mask; the stored value otherwise. -/
def Spec.Seen (s : Shallot K) (masked : Bool) (p : GProp K) (i : ℕ) (v : XF K) : Prop :=
  (Marked p.mask i ∨ (masked = true ∧ MaskedAt s i) → v = .nan) ∧
  (¬ (Marked p.mask i ∨ (masked = true ∧ MaskedAt s i)) → p.data.data[i]? = some v)

theorem getData_true {a b c : ℕ} (p : GProp K) (hsh : InShape a b c p) : ∃ d1 : Nd K,
    GProp.getData (.bool true) p = (.ok d1, { p with data := d1 }) ∧
    d1.shape = p.data.shape ∧ d1.data.length = p.data.data.length ∧
    ∀ i < p.data.data.length, (Marked p.mask i → d1.data[i]? = some XF.nan) ∧
      (¬ Marked p.mask i → d1.data[i]? = p.data.data[i]?) := by
  have hcase : p.mask = none ∨ ∃ m, p.mask = some m := by cases p.mask <;> simp
  rcases hcase with hm | ⟨m, hm⟩
  · refine ⟨p.data, C30_unmasked_read p true (Or.inr hm), rfl, rfl, fun i hi => ⟨?_, fun _ => rfl⟩⟩
    rintro ⟨k, hk, -⟩
    rw [hm] at hk
    cases hk
  · have hms : m.shape = p.data.shape := by rw [(hsh.mask m hm).1, hsh.data.1]
    refine ⟨⟨p.data.shape, putWhere .nan m.data p.data.data⟩, ?_, rfl, putWhere_length _ _ _, ?_⟩
    · unfold GProp.getData
      have : boolean (K := K) (.bool true) = .ok true := rfl
      rw [this, Meth.lift_ok_bind, Meth.get_bind]
      obtain ⟨a1, a2, a3, a4, a5, a6, a7, a8, a9⟩ := p
      simp only at hm hms
      subst hm
      simp only [if_pos hms]
      rfl
    · intro i hi
      obtain ⟨h1, h2⟩ := putWhere_get XF.nan m.data p.data.data i
      refine ⟨?_, ?_⟩
      · rintro ⟨k, hk, hk'⟩
        rw [hm] at hk
        cases hk
        exact h1 hk' hi
      · intro hno
        exact h2 fun h => hno ⟨m, hm, h⟩

theorem getCube_ok (s : Shallot K) (hs : Sound s) (c : Cube) (p : GProp K) (hp : s.prop c = some p)
    (m : Bool) : ∃ d : Nd K, Shallot.getCube c (.bool m) (.bool true) s =
        (.ok d, s.setProp { p with data := d } c) ∧ d.shape = p.data.shape ∧
      d.data.length = p.data.data.length ∧
      ∀ i < p.data.data.length, ∃ v, d.data[i]? = some v ∧ Seen s m p i v := by
  cases m with
  | true =>
    obtain ⟨d, h1, h2, h3, h4⟩ := getCube_masked s hs c p hp
    refine ⟨d, h1, h2, h3, fun i hi => ⟨d.data[i], List.getElem?_eq_getElem _, ?_, ?_⟩⟩
    · intro h
      have := (h4 i hi).1 (by simpa using h)
      rw [List.getElem?_eq_getElem (by rw [h3]; exact hi)] at this
      exact Option.some.inj this
    · intro h
      rw [← (h4 i hi).2 (by simpa using h)]
      exact List.getElem?_eq_getElem _
  | false =>
    obtain ⟨d, h1, h2, h3, h4⟩ := getData_true p (hs.props c p hp)
    refine ⟨d, ?_, h2, h3, fun i hi => ⟨d.data[i], List.getElem?_eq_getElem _, ?_, ?_⟩⟩
    · unfold Shallot.getCube
      rw [bind_ok _ _ _ _ _ (onProp_ok c _ s p _ d hp h1)]
      rfl
    · intro h
      have := (h4 i hi).1 (by simpa using h)
      rw [List.getElem?_eq_getElem (by rw [h3]; exact hi)] at this
      exact Option.some.inj this
    · intro h
      rw [← (h4 i hi).2 (by simpa using h)]
      exact List.getElem?_eq_getElem _

theorem lookup_ok (s : Shallot K) (hs : Sound s) (c : Cube) (p : GProp K) (hp : s.prop c = some p)
    (m : Bool) (y x r : ℕ) (hy : y < s.params.gridShape.1) (hx : x < s.params.gridShape.2.1)
    (hr : r < s.params.gridShape.2.2) : ∃ (v : XF K) (d : Nd K),
    Shallot.lookup c (.bool m) y x r s = (.ok v, s.setProp { p with data := d } c) ∧
    Seen s m p (flat s y x r) v := by
  have hsh := hs.props c p hp
  obtain ⟨d, h1, h2, h3, h4⟩ := getCube_ok s hs c p hp m
  obtain ⟨v, hv, hseen⟩ := h4 (flat s y x r) (by rw [hsh.data.2]; exact flat_lt hy hx hr)
  refine ⟨v, d, ?_, hseen⟩
  unfold Shallot.lookup
  rw [bind_ok _ _ _ _ _ h1, get3_eq (h2.trans hsh.data.1) hy hx hr, at3_get (h2.trans hsh.data.1),
    List.getD_eq_getElem?_getD]
  have : d.data[(y * s.params.gridShape.2.1 + x) * s.params.gridShape.2.2 + r]? = some v := hv
  rw [this]
  rfl

theorem gradientValues_ok (m : Bool) (y x r : ℕ) : ∀ (n k : ℕ) (s : Shallot K) (l : List (GGrad K)),
    Sound s → s.gradients = some l → k + n = l.length → y < s.params.gridShape.1 →
    x < s.params.gridShape.2.1 → r < s.params.gridShape.2.2 →
    ∃ vs s', Shallot.gradientValues (.bool m) y x r n k s =
        (.ok ((l.drop k).map fun g => g.position.num, vs), s') ∧ s' = { s with gradients := s'.gradients } ∧
      List.Forall₂ (fun g v => (m = true ∧ Marked g.prop.mask (flat s y x r) → v = .nan) ∧
        (¬ (m = true ∧ Marked g.prop.mask (flat s y x r)) →
          g.prop.data.data[flat s y x r]? = some v)) (l.drop k) vs
  | 0, k, s, l, hs, hl, hk, hy, hx, hr => by
    refine ⟨[], s, ?_, rfl, ?_⟩
    · rw [List.drop_of_length_le (by omega)]; rfl
    · rw [List.drop_of_length_le (by omega)]; exact .nil
  | n + 1, k, s, l, hs, hl, hk, hy, hx, hr => by
    have hkl : k < l.length := by omega
    have hgk : (s.gradients.getD [])[k]? = some l[k] := by rw [hl]; exact List.getElem?_eq_getElem hkl
    have hsh := hs.gradients l hl l[k] (List.getElem_mem _)
    obtain ⟨d, hd1, hd2, hd3, hd4⟩ : ∃ d : Nd K, Shallot.gradientValues.onGradData (.bool m) l[k] =
        (.ok d, { l[k] with prop := { l[k].prop with data := d } }) ∧ d.shape = l[k].prop.data.shape ∧
        d.data.length = l[k].prop.data.data.length ∧
        ∀ i < l[k].prop.data.data.length, (m = true ∧ Marked l[k].prop.mask i → d.data[i]? = some XF.nan) ∧
          (¬ (m = true ∧ Marked l[k].prop.mask i) → d.data[i]? = l[k].prop.data.data[i]?) := by
      cases m with
      | true =>
        obtain ⟨d, h1, h2, h3, h4⟩ := getData_true l[k].prop hsh
        refine ⟨d, ?_, h2, h3, ?_⟩
        · unfold Shallot.gradientValues.onGradData
          simp only [h1]
        · simpa using h4
      | false =>
        refine ⟨l[k].prop.data, ?_, rfl, rfl, by simp⟩
        unfold Shallot.gradientValues.onGradData
        rw [C30_unmasked_read l[k].prop false (Or.inl rfl)]
    obtain ⟨s1, hs1⟩ : ∃ s1, s1 = { s with gradients := some (l.set k
      { l[k] with prop := { l[k].prop with data := d } }) } := ⟨_, rfl⟩
    have hon : Shallot.onGradient k (Shallot.gradientValues.onGradData (.bool m)) s = (.ok d, s1) := by
      unfold Shallot.onGradient
      rw [hgk]
      simp only [hd1, hs1, hl, Option.getD_some]
    have hsound : Sound s1 := by
      rw [hs1]
      refine setGradients_sound hs _ ?_
      rintro l' ⟨⟩ g hg
      rcases List.mem_or_eq_of_mem_set hg with hg | rfl
      · exact hs.gradients l hl g hg
      · exact inShape_of hsh hd2 hd3 rfl
    obtain ⟨vs, s', h1, h2, h3⟩ := gradientValues_ok m y x r n (k + 1) s1 _ hsound (by rw [hs1])
      (by rw [List.length_set]; omega) (by rw [hs1]; exact hy) (by rw [hs1]; exact hx)
      (by rw [hs1]; exact hr)
    have hdrop : (l.set k { l[k] with prop := { l[k].prop with data := d } }).drop (k + 1) =
        l.drop (k + 1) := List.drop_set_of_lt (by omega)
    rw [hdrop] at h1 h3
    have hflat : ∀ s : Shallot K, flat s y x r < s.params.gridShape.1 * s.params.gridShape.2.1 *
        s.params.gridShape.2.2 ↔ (y * s.params.gridShape.2.1 + x) * s.params.gridShape.2.2 + r <
          s.params.gridShape.1 * s.params.gridShape.2.1 * s.params.gridShape.2.2 := fun s => Iff.rfl
    have hi : flat s y x r < d.data.length := by
      rw [hd3, hsh.data.2]; exact flat_lt hy hx hr
    refine ⟨d.data[flat s y x r] :: vs, s', ?_, ?_, ?_⟩
    · unfold Shallot.gradientValues
      rw [Meth.get_bind]
      simp only [hgk]
      rw [bind_ok _ _ _ _ _ hon, get3_eq (hd2.trans hsh.data.1) hy hx hr, Meth.lift_ok_bind,
        bind_ok _ _ _ _ _ h1, List.drop_eq_getElem_cons hkl]
      simp only [List.map_cons]
      rw [at3_get (hd2.trans hsh.data.1), List.getD_eq_getElem?_getD]
      have : d.data[(y * s.params.gridShape.2.1 + x) * s.params.gridShape.2.2 + r]? =
        some d.data[flat s y x r] := List.getElem?_eq_getElem hi
      rw [this]
      rfl
    · rw [h2, hs1]
    · rw [List.drop_eq_getElem_cons hkl]
      refine .cons ⟨?_, ?_⟩ ?_
      · intro h
        have := (hd4 (flat s y x r) (by rw [← hd3]; exact hi)).1 h
        rw [List.getElem?_eq_getElem hi] at this
        exact Option.some.inj this
      · intro h
        rw [← (hd4 (flat s y x r) (by rw [← hd3]; exact hi)).2 h]
        exact List.getElem?_eq_getElem hi
      · have hf : flat s1 y x r = flat s y x r := by rw [hs1]; rfl
        rw [hf] at h3
        exact h3

/-! ## The whole point -/

/-- An integer index. -/
inductive Spec.PlainIndex : PyVal K → ℤ → Prop
  | int (k : ℤ) : PlainIndex (.int k) k
  | np (w : IntW) (k : ℤ) : PlainIndex (.npInt w k) k

theorem less_fin_iff (a b : K) : Less (XF.fin a) (XF.fin b) ↔ a < b := by
  rw [less_iff]; simp [XF.lt]

theorem gridIndex_ok {v : PyVal K} {k : ℤ} (h : PlainIndex v k) (n : ℕ) (h0 : 0 ≤ k) (hk : k ≤ n) :
    Shallot.gridIndex v n = .ok k := by
  have h1 : (k : K) ≤ ((n : ℤ) : K) := Int.cast_le.2 hk
  have h2 : ((0 : ℤ) : K) ≤ k := Int.cast_le.2 h0
  have hacc : Acceptable true false v (.int 0) (.int n) := by
    refine ⟨.fin k, .fin (0 : ℤ), .fin (n : ℤ), ?_, int_isNumber 0, int_isNumber n, ?_, ?_⟩
    · cases h with
      | int k => exact Or.inl ⟨k, .int k, rfl⟩
      | np w k => exact Or.inl ⟨k, .npInt w k, rfl⟩
    · rw [less_fin_iff]; exact not_lt.2 (h2.trans h1)
    · simp only [Violates, less_fin_iff, Bool.false_eq_true, if_false]
      exact fun h => h.elim (not_lt.2 h2) (not_lt.2 h1)
  have := (C01_number_ok_iff true false v v (.int 0) (.int n)).2 ⟨rfl, hacc⟩
  unfold Shallot.gridIndex
  rw [this, ok_bind]
  cases h <;> rfl

theorem gridIndex_error {v : PyVal K} {k : ℤ} (h : PlainIndex v k) (n : ℕ) (hk : k < 0 ∨ n < k) :
    Shallot.gridIndex v n = .error .valueError := by
  have hnum : IsNumber true v (.fin (k : K)) := by
    cases h with
    | int k => exact Or.inl ⟨k, .int k, rfl⟩
    | np w k => exact Or.inl ⟨k, .npInt w k, rfl⟩
  have hacc : ¬ Acceptable true false v (.int 0) (.int n) := by
    rintro ⟨a, l, u, h1, h2, h3, -, h5⟩
    have e1 := (isNumber_num h1).symm.trans (isNumber_num hnum)
    have e2 := (isNumber_num h2).symm.trans (isNumber_num (int_isNumber 0))
    have e3 := (isNumber_num h3).symm.trans (isNumber_num (int_isNumber (n : ℤ)))
    subst e1 e2 e3
    refine h5 ?_
    rcases hk with hk | hk
    · have : (k : K) < ((0 : ℤ) : K) := Int.cast_lt.2 hk
      simp only [Violates, less_fin_iff, Bool.false_eq_true, if_false]
      exact Or.inl this
    · have : ((n : ℤ) : K) < (k : K) := Int.cast_lt.2 hk
      simp only [Violates, less_fin_iff, Bool.false_eq_true, if_false]
      exact Or.inr this
  have := (C01_number_errors true false v (.int 0) (.int n) hacc).1
    ⟨⟨_, hnum⟩, ⟨_, int_isNumber 0⟩, ⟨_, int_isNumber n⟩⟩
  unfold Shallot.gridIndex
  rw [this, error_bind]

theorem get3_error {d : Nd K} {a b c : ℕ} (h : d.shape = [a, b, c]) {y x r : ℕ}
    (hi : y = a ∨ x = b ∨ r = c) : d.get3 y x r = .error .indexError := by
  unfold Nd.get3
  rw [h]
  simp only
  rw [if_neg (by omega)]

/-- The data of the grid point with these indices. -/
structure Spec.PointOf (s : Shallot K) (masked : Bool) (y x r : ℕ) (pt : Shallot.Point K) : Prop where
  diskRadius : Seen s masked s.diskRadius (flat s y x r) pt.diskRadius
  inclination : Seen s masked s.inclination (flat s y x r) pt.inclination
  tilt : Seen s masked s.tilt (flat s y x r) pt.tilt
  fx : Seen s masked s.fxMap (flat s y x r) pt.fx
  fy : Seen s masked s.fyMap (flat s y x r) pt.fy
  diagnostic : ∀ p, s.diagnosticMap = some p → Seen s masked p (flat s y x r) pt.diagnostic
  dx : s.params.dx.data[x]? = some pt.dx
  dy : s.params.dy.data[y]? = some pt.dy
  rf : s.params.rfArray.data[r]? = some pt.rf
  none : s.gradients = none → pt.gradients = none
  gradients : ∀ l, s.gradients = some l → ∃ vs, pt.gradients = some (l.map fun g => g.position.num, vs) ∧
    List.Forall₂ (fun g v => (masked = true ∧ Marked g.prop.mask (flat s y x r) → v = XF.nan) ∧
      (¬ (masked = true ∧ Marked g.prop.mask (flat s y x r)) →
        g.prop.data.data[flat s y x r]? = some v)) l vs

theorem seen_of {s t : Shallot K} {m : Bool} {p : GProp K} {i : ℕ} {v : XF K} (h : Faded s t)
    (hv : Seen t m p i v) : Seen s m p i v := by
  unfold Seen at *
  rw [← h.maskedAt]
  exact hv

theorem flat_of {s t : Shallot K} (h : Faded s t) (y x r : ℕ) : flat t y x r = flat s y x r := by
  unfold flat
  rw [h.rest]

theorem vectorAt_ok (l : List (XF K)) (k : ℕ) (hk : k < l.length) : Shallot.vectorAt l (k : ℤ) = .ok l[k] := by
  unfold Shallot.vectorAt
  simp [hk]

/-- One more lookup, after the reads that led from `s` to `t`. -/
theorem lookup_next {s t : Shallot K} (hs : Sound s) (ht : Sound t) (h : Faded s t) (c : Cube)
    (p : GProp K) (hp : s.prop c = some p) (hc : t.prop c = s.prop c) (m : Bool) (y x r : ℕ)
    (hy : y < s.params.gridShape.1) (hx : x < s.params.gridShape.2.1)
    (hr : r < s.params.gridShape.2.2) : ∃ (v : XF K) (t' : Shallot K),
    Shallot.lookup c (.bool m) y x r t = (.ok v, t') ∧ Sound t' ∧ Faded s t' ∧
    (∀ c', c' ≠ c → t'.prop c' = t.prop c') ∧ t'.gradients = t.gradients ∧
    Seen s m p (flat s y x r) v := by
  have hpar : t.params = s.params := by rw [h.rest]
  obtain ⟨v, d, h1, h2⟩ := lookup_ok t ht c p (hc.trans hp) m y x r (by rw [hpar]; exact hy)
    (by rw [hpar]; exact hx) (by rw [hpar]; exact hr)
  have h3 := lookup_faded c (.bool m) y x r t
  have h4 := lookup_sound c (.bool m) y x r t ht
  rw [h1] at h3 h4
  refine ⟨v, _, h1, h4, h.trans h3, ?_, setProp_gradients _ _ _, ?_⟩
  · intro c' hc'
    rw [setProp_prop, if_neg hc']
  · rw [← flat_of h]
    exact seen_of h h2

/-- **C74.** `get_grid_point_data` gives the data of its grid point. -/
theorem C74_point (s : Shallot K) (hs : Sound s) (hd : s.diagnosticMap ≠ none) (m : Bool)
    (y x r : ℕ) (vy vx vr : PyVal K) (iy : PlainIndex vy y) (ix : PlainIndex vx x) (ir : PlainIndex vr r)
    (hy : y < s.params.gridShape.1) (hx : x < s.params.gridShape.2.1)
    (hr : r < s.params.gridShape.2.2) :
    ∃ pt s', Shallot.gridPoint vy vx vr (.bool m) s = (.ok pt, s') ∧ Faded s s' ∧
      s'.gradientFit = s.gradientFit ∧ PointOf s m y x r pt := by
  obtain ⟨p, hp⟩ := Option.ne_none_iff_exists'.1 hd
  obtain ⟨v1, t1, a1, a2, a3, a4, a5, a6⟩ := lookup_next hs hs (.refl s) .diskRadius _ rfl rfl m y x r hy hx hr
  obtain ⟨v2, t2, b1, b2, b3, b4, b5, b6⟩ := lookup_next hs a2 a3 .inclination _ rfl
    (a4 _ (by decide)) m y x r hy hx hr
  obtain ⟨v3, t3, c1, c2, c3, c4, c5, c6⟩ := lookup_next hs b2 b3 .tilt _ rfl
    ((b4 _ (by decide)).trans (a4 _ (by decide))) m y x r hy hx hr
  obtain ⟨v4, t4, d1, d2, d3, d4, d5, d6⟩ := lookup_next hs c2 c3 .fxMap _ rfl
    ((c4 _ (by decide)).trans ((b4 _ (by decide)).trans (a4 _ (by decide)))) m y x r hy hx hr
  obtain ⟨v5, t5, e1, e2, e3, e4, e5, e6⟩ := lookup_next hs d2 d3 .fyMap _ rfl
    ((d4 _ (by decide)).trans ((c4 _ (by decide)).trans ((b4 _ (by decide)).trans
      (a4 _ (by decide))))) m y x r hy hx hr
  obtain ⟨v6, t6, f1, f2, f3, f4, f5, f6⟩ := lookup_next hs e2 e3 .diagnosticMap p hp
    ((e4 _ (by decide)).trans ((d4 _ (by decide)).trans ((c4 _ (by decide)).trans
      ((b4 _ (by decide)).trans (a4 _ (by decide)))))) m y x r hy hx hr
  have hgr : t6.gradients = s.gradients := f5.trans (e5.trans (d5.trans (c5.trans (b5.trans a5))))
  have hfit : t6.prop .gradientFit = s.prop .gradientFit :=
    (f4 _ (by decide)).trans ((e4 _ (by decide)).trans ((d4 _ (by decide)).trans
      ((c4 _ (by decide)).trans ((b4 _ (by decide)).trans (a4 _ (by decide))))))
  have hpar : t6.params = s.params := by rw [f3.rest]
  have hsg := hs.shaped.grid
  have hx' : x < s.params.dx.data.length := by rw [hsg] at hx; exact hx
  have hy' : y < s.params.dy.data.length := by rw [hsg] at hy; exact hy
  have hr' : r < s.params.rfArray.data.length := by
    rw [hsg] at hr; rw [hs.shaped.rfArray]; exact hr
  obtain ⟨gr, t7, g1, g2, g3, g4, g5⟩ : ∃ gr t7, Shallot.gradientsAt (.bool m) y x r t6 = (.ok gr, t7) ∧
      Faded t6 t7 ∧ t7.gradientFit = t6.gradientFit ∧ (s.gradients = none → gr = none) ∧
      (∀ l, s.gradients = some l → ∃ vs, gr = some (l.map fun g => g.position.num, vs) ∧
        List.Forall₂ (fun g v => (m = true ∧ Marked g.prop.mask (flat s y x r) → v = XF.nan) ∧
          (¬ (m = true ∧ Marked g.prop.mask (flat s y x r)) →
            g.prop.data.data[flat s y x r]? = some v)) l vs) := by
    unfold Shallot.gradientsAt
    rw [Meth.get_bind, hgr]
    cases hg : s.gradients with
    | none => exact ⟨none, t6, rfl, .refl _, rfl, fun _ => rfl, fun l hl => by cases hl⟩
    | some l =>
      obtain ⟨vs, t7, h1, h2, h3⟩ := gradientValues_ok m y x r l.length 0 t6 l f2 (hgr.trans hg) (by simp)
        (by rw [hpar]; exact hy) (by rw [hpar]; exact hx) (by rw [hpar]; exact hr)
      have h4 := gradientValues_faded (.bool m) y x r l.length 0 t6
      rw [h1] at h4
      simp only
      rw [bind_ok _ _ _ _ _ h1]
      refine ⟨_, t7, rfl, h4, by rw [h2], ?_, ?_⟩
      · intro h; cases h
      · rintro l' ⟨⟩
        refine ⟨vs, rfl, ?_⟩
        rw [flat_of f3] at h3
        exact h3
  refine ⟨⟨v1, v2, v3, s.params.dx.data[x], s.params.dy.data[y], s.params.rfArray.data[r], v4, v5, v6, gr⟩,
    t7, ?_, f3.trans g2, g3.trans hfit, ?_⟩
  · unfold Shallot.gridPoint
    rw [Meth.get_bind, gridIndex_ok iy _ (by omega) (by omega), Meth.lift_ok_bind,
      gridIndex_ok ix _ (by omega) (by omega), Meth.lift_ok_bind,
      gridIndex_ok ir _ (by omega) (by omega), Meth.lift_ok_bind,
      bind_ok _ _ _ _ _ a1, bind_ok _ _ _ _ _ b1, bind_ok _ _ _ _ _ c1,
      vectorAt_ok _ _ hx', Meth.lift_ok_bind, vectorAt_ok _ _ hy', Meth.lift_ok_bind,
      vectorAt_ok _ _ hr', Meth.lift_ok_bind,
      bind_ok _ _ _ _ _ d1, bind_ok _ _ _ _ _ e1, bind_ok _ _ _ _ _ f1, bind_ok _ _ _ _ _ g1]
    rfl
  · exact ⟨a6, b6, c6, d6, e6, fun q hq => by rw [hp] at hq; cases hq; exact f6,
      List.getElem?_eq_getElem _, List.getElem?_eq_getElem _, List.getElem?_eq_getElem _, g4, g5⟩

/-- **C48.** An integer index below 0 or above the length of its axis is a `ValueError`. -/
theorem C48_outside_partial (s : Shallot K) (m vy vx vr : PyVal K) (y x r : ℤ) (iy : PlainIndex vy y)
    (ix : PlainIndex vx x) (ir : PlainIndex vr r)
    (h : (y < 0 ∨ (s.params.gridShape.1 : ℤ) < y) ∨ (x < 0 ∨ (s.params.gridShape.2.1 : ℤ) < x) ∨
      (r < 0 ∨ (s.params.gridShape.2.2 : ℤ) < r)) :
    Shallot.gridPoint vy vx vr m s = (.error .valueError, s) := by
  unfold Shallot.gridPoint
  rw [Meth.get_bind]
  by_cases hy : y < 0 ∨ (s.params.gridShape.1 : ℤ) < y
  · rw [gridIndex_error iy _ hy]; rfl
  rw [gridIndex_ok iy _ (by omega) (by omega), Meth.lift_ok_bind]
  by_cases hx : x < 0 ∨ (s.params.gridShape.2.1 : ℤ) < x
  · rw [gridIndex_error ix _ hx]; rfl
  rw [gridIndex_ok ix _ (by omega) (by omega), Meth.lift_ok_bind]
  by_cases hr : r < 0 ∨ (s.params.gridShape.2.2 : ℤ) < r
  · rw [gridIndex_error ir _ hr]; rfl
  exact absurd h (by tauto)

/-- **C48, false in full.** An index equal to the length of its axis passes the validation; it is the
lookup that fails, with an `IndexError`. -/
theorem C48_false (s : Shallot K) (hs : Sound s) (m : Bool) (vy vx vr : PyVal K) (y x r : ℕ)
    (iy : PlainIndex vy y) (ix : PlainIndex vx x) (ir : PlainIndex vr r)
    (hy : y ≤ s.params.gridShape.1) (hx : x ≤ s.params.gridShape.2.1)
    (hr : r ≤ s.params.gridShape.2.2)
    (h : y = s.params.gridShape.1 ∨ x = s.params.gridShape.2.1 ∨ r = s.params.gridShape.2.2) :
    (Shallot.gridPoint vy vx vr (.bool m) s).1 = .error .indexError := by
  unfold Shallot.gridPoint
  rw [Meth.get_bind, gridIndex_ok iy _ (by omega) (by omega), Meth.lift_ok_bind,
    gridIndex_ok ix _ (by omega) (by omega), Meth.lift_ok_bind,
    gridIndex_ok ir _ (by omega) (by omega), Meth.lift_ok_bind]
  obtain ⟨d, h1, h2, h3, h4⟩ := getCube_ok s hs .diskRadius s.diskRadius rfl m
  have hl : Shallot.lookup .diskRadius (.bool m) y x r s = (.error .indexError,
      s.setProp { s.diskRadius with data := d } .diskRadius) := by
    unfold Shallot.lookup
    rw [bind_ok _ _ _ _ _ h1, get3_error (h2.trans (hs.props .diskRadius _ rfl).data.1) h]
    rfl
  rw [bind_err _ _ _ _ _ hl]

end
end Beyonce
