import Verif.Props.Solved
import Verif.Props.Disks

/-!
# C47: the closest grid point
-/

set_option linter.unusedSectionVars false

namespace Beyonce
open Spec Geometry Real

/-- A query of `determine_closest_grid_point`: the four arguments are numbers in range. -/
structure Spec.Query (vr vi vt vp : PyVal ℝ) (R I T p : ℝ) : Prop where
  radius : IsNumber false vr (.fin R)
  inclination : IsNumber false vi (.fin I)
  tilt : IsNumber false vt (.fin T)
  impact : IsNumber false vp (.fin p)
  positive : 0 ≤ R
  inclined : 0 ≤ I ∧ I ≤ 90
  tilted : -180 ≤ T ∧ T ≤ 180

/-- The three disk parameters that are read at flat position `i` are these numbers. -/
structure Spec.Shown (s : Shallot ℝ) (m : Bool) (i : ℕ) (a b c : ℝ) : Prop where
  radius : Seen s m s.diskRadius i (.fin a)
  inclination : Seen s m s.inclination i (.fin b)
  tilt : Seen s m s.tilt i (.fin c)

/-- The disk parameters contain no infinities. -/
def Spec.NoInfinities (s : Shallot ℝ) : Prop :=
  ∀ p, p = s.diskRadius ∨ p = s.inclination ∨ p = s.tilt → ∀ v ∈ p.data.data, Plain v

/-- The distance between two points `(radius, inclination, tilt, dy)`. -/
noncomputable def Spec.apart (R I T p a b c y : ℝ) : ℝ :=
  √((a - R) ^ 2 + (b - I) ^ 2 + (c - T) ^ 2 + (y - p) ^ 2)

/-- The position the code gives to row `k` of `n` rows from `a` to `b`. -/
noncomputable def Spec.rowAt (a b p : ℝ) (n k : ℕ) : ℝ :=
  if p < 0 ∧ 0 < a + k / n * (b - a) then 10 ^ 7
  else if 0 < p ∧ a + k / n * (b - a) < 0 then -(10 ^ 7)
  else a + k / n * (b - a)

theorem rowPosition_fin (dy : List (XF ℝ)) (a b p : ℝ) (k : ℕ) (h0 : dy.headD .nan = .fin a)
    (h1 : dy.getLastD .nan = .fin b) (hne : dy ≠ []) :
    Shallot.rowPosition dy (.fin p) k = .fin (rowAt a b p dy.length k) := by
  have hn : (dy.length : ℝ) ≠ 0 := by
    simpa using hne
  unfold Shallot.rowPosition rowAt
  simp only [h0, h1, XF.sub_fin, XF.div_fin _ _ hn, XF.mul_fin, XF.add_fin, XF.lt_fin, decide_eq_true_eq]
  have e : (k : ℝ) / dy.length * (b - a) + a = a + k / dy.length * (b - a) := add_comm _ _
  rw [e]
  by_cases hp : p < 0
  · have hp' : ¬ 0 < p := by linarith
    by_cases hq : 0 < a + (k : ℝ) / dy.length * (b - a)
    · simp [hp, hq]
    · simp [hp, hp', hq]
  · by_cases hp' : 0 < p
    · by_cases hq : a + (k : ℝ) / dy.length * (b - a) < 0
      · simp [hp, hp', hq]
      · simp [hp, hp', hq]
    · simp [hp, hp']

theorem distance_fin (R I T p a b c y : ℝ) :
    Shallot.distance (.fin R) (.fin I) (.fin T) (.fin p) (.fin a) (.fin b) (.fin c) (.fin y) =
      .fin (apart R I T p a b c y) := by
  unfold Shallot.distance apart
  simp only [XF.sub_fin, XF.sq_fin, XF.add_fin]
  rw [XF.sqrt_fin _ (add_nonneg (add_nonneg (add_nonneg (mul_self_nonneg _) (mul_self_nonneg _))
    (mul_self_nonneg _)) (mul_self_nonneg _))]
  congr 2
  ring

theorem distance_nan (R I T p y : ℝ) (a b c : XF ℝ) (ha : Plain a) (hb : Plain b) (hc : Plain c)
    (h : a = .nan ∨ b = .nan ∨ c = .nan) :
    Shallot.distance (.fin R) (.fin I) (.fin T) (.fin p) a b c (.fin y) = .nan := by
  rcases ha with rfl | ⟨a, rfl⟩ <;> rcases hb with rfl | ⟨b, rfl⟩ <;> rcases hc with rfl | ⟨c, rfl⟩ <;>
    first | (simp [Shallot.distance, XF.sub, XF.neg, XF.add, XF.sq, XF.mul, XF.sqrt]; done) | (simp at h)

/-- One more cube is read, after the reads that led from `s` to `t`. -/
theorem getCube_next {s t : Shallot ℝ} (hs : Sound s) (ht : Sound t) (h : Faded s t) (c : Cube)
    (p : GProp ℝ) (hp : s.prop c = some p) (hc : t.prop c = s.prop c) (m : Bool) :
    ∃ (d : Nd ℝ) (t' : Shallot ℝ), Shallot.getCube c (.bool m) (.bool true) t = (.ok d, t') ∧ Sound t' ∧
      Faded s t' ∧ (∀ c', c' ≠ c → t'.prop c' = t.prop c') ∧
      d.shape = [s.params.gridShape.1, s.params.gridShape.2.1, s.params.gridShape.2.2] ∧
      d.data.length = s.params.gridShape.1 * s.params.gridShape.2.1 * s.params.gridShape.2.2 ∧
      ∀ i < s.params.gridShape.1 * s.params.gridShape.2.1 * s.params.gridShape.2.2,
        ∃ v, d.data[i]? = some v ∧ Seen s m p i v := by
  obtain ⟨d, h1, h2, h3, h4⟩ := getCube_ok t ht c p (hc.trans hp) m
  have hsh := hs.props c p hp
  have h5 := getCube_faded c (.bool m) (.bool true) t
  have h6 := getCube_sound c (.bool m) (.bool true) t ht
  rw [h1] at h5 h6
  refine ⟨d, _, h1, h6, h.trans h5, ?_, h2.trans hsh.data.1, h3.trans hsh.data.2, ?_⟩
  · intro c' hc'
    rw [setProp_prop, if_neg hc']
  · intro i hi
    obtain ⟨v, hv, hv'⟩ := h4 i (by rw [hsh.data.2]; exact hi)
    exact ⟨v, hv, seen_of h hv'⟩

theorem seen_plain {s : Shallot ℝ} {m : Bool} {p : GProp ℝ} {i : ℕ} {v : XF ℝ}
    (hp : ∀ v ∈ p.data.data, Plain v) (h : Seen s m p i v) : Plain v := by
  by_cases hm : Marked p.mask i ∨ (m = true ∧ MaskedAt s i)
  · exact Or.inl (h.1 hm)
  · exact hp v (List.mem_of_getElem? (h.2 hm))

theorem seen_unique {s : Shallot ℝ} {m : Bool} {p : GProp ℝ} {i : ℕ} {v w : XF ℝ}
    (h : Seen s m p i v) (h' : Seen s m p i w) : v = w := by
  by_cases hm : Marked p.mask i ∨ (m = true ∧ MaskedAt s i)
  · rw [h.1 hm, h'.1 hm]
  · exact Option.some.inj ((h.2 hm).symm.trans (h'.2 hm))

/-- The arguments pass the validation, the cubes are read, and `closestOf` gives the answer. -/
theorem closest_reads (s : Shallot ℝ) (hs : Sound s) (hi : NoInfinities s) (m : Bool)
    (vr vi vt vp : PyVal ℝ) (R I T p a b : ℝ) (hq : Query vr vi vt vp R I T p)
    (h0 : s.params.dy.data.headD .nan = .fin a) (h1 : s.params.dy.data.getLastD .nan = .fin b) :
    ∃ (D : Nd ℝ) (s' : Shallot ℝ), Faded s s' ∧
      Shallot.closestPoint vr vi vt vp (.bool m) s = (Shallot.closestOf s.params D, s') ∧
      D.data.length = s.params.gridShape.1 * s.params.gridShape.2.1 * s.params.gridShape.2.2 ∧
      ∀ y x r, y < s.params.gridShape.1 → x < s.params.gridShape.2.1 → r < s.params.gridShape.2.2 →
        (∃ u v w : ℝ, Shown s m (flat s y x r) u v w ∧ D.data[flat s y x r]? =
          some (.fin (apart R I T p u v w (rowAt a b p s.params.gridShape.1 y)))) ∨
        ((∀ u v w : ℝ, ¬ Shown s m (flat s y x r) u v w) ∧ D.data[flat s y x r]? = some .nan) := by
  obtain ⟨d1, t1, e1, s1, f1, k1, g1, l1, v1⟩ := getCube_next hs hs (.refl s) .diskRadius _ rfl rfl m
  obtain ⟨d2, t2, e2, s2, f2, k2, g2, l2, v2⟩ := getCube_next hs s1 f1 .inclination _ rfl
    (k1 _ (by decide)) m
  obtain ⟨d3, t3, e3, s3, f3, k3, g3, l3, v3⟩ := getCube_next hs s2 f2 .tilt _ rfl
    ((k2 _ (by decide)).trans (k1 _ (by decide))) m
  have hpar : t3.params = s.params := by rw [f3.rest]
  have hne : s.params.dy.data ≠ [] := by
    intro h; rw [h] at h0; cases h0
  have hlen : s.params.dy.data.length = s.params.gridShape.1 := by rw [hs.shaped.grid]
  have n1 : number vr (.bool false) (.int 0) = .ok vr := by
    refine (C01_number_ok_iff false false vr vr (.int 0) (.float .pinf)).2 ⟨rfl, _, _, _, hq.radius,
      int_isNumber 0, Or.inr ⟨rfl, .float _⟩, ?_, ?_⟩
    · rw [less_iff]; simp [XF.lt]
    · have := hq.positive
      simp only [Violates, Bool.false_eq_true, if_false, less_iff]
      simpa [XF.lt] using this
  have n2 : number vi (.bool false) (.int 0) (.int 90) = .ok vi := by
    refine (C01_number_ok_iff false false vi vi (.int 0) (.int 90)).2 ⟨rfl, _, _, _, hq.inclination,
      int_isNumber 0, int_isNumber 90, ?_, ?_⟩
    · rw [less_iff]; simp [XF.lt]
    · have := hq.inclined
      simp only [Violates, Bool.false_eq_true, if_false, less_iff]
      simpa [XF.lt] using this
  have n3 : number vt (.bool false) (.int (-180)) (.int 180) = .ok vt := by
    refine (C01_number_ok_iff false false vt vt (.int (-180)) (.int 180)).2 ⟨rfl, _, _, _, hq.tilt,
      int_isNumber (-180), int_isNumber 180, ?_, ?_⟩
    · rw [less_iff]; simp [XF.lt]
    · have := hq.tilted
      simp only [Violates, Bool.false_eq_true, if_false, less_iff]
      simpa [XF.lt] using this
  have n4 : number vp = .ok vp := (number_default _ _).2 ⟨rfl, _, hq.impact⟩
  refine ⟨Shallot.distances vr.num vi.num vt.num vp.num s.params.dy.data s.params.gridShape.1
    s.params.gridShape.2.1 s.params.gridShape.2.2 d1 d2 d3, t3, f3, ?_, cubeOf_length _ _ _ _, ?_⟩
  · unfold Shallot.closestPoint
    have hb : boolean (K := ℝ) (.bool m) = .ok m := rfl
    rw [n1, Meth.lift_ok_bind, n2, Meth.lift_ok_bind, n3, Meth.lift_ok_bind, n4, Meth.lift_ok_bind, hb,
      Meth.lift_ok_bind, bind_ok _ _ _ _ _ e1, bind_ok _ _ _ _ _ e2, bind_ok _ _ _ _ _ e3, Meth.get_bind]
    simp only [hpar]
    rfl
  · intro y x r hy hx hr
    have hlt : flat s y x r < s.params.gridShape.1 * s.params.gridShape.2.1 * s.params.gridShape.2.2 :=
      flat_lt hy hx hr
    obtain ⟨w1, q1, o1⟩ := v1 _ hlt
    obtain ⟨w2, q2, o2⟩ := v2 _ hlt
    obtain ⟨w3, q3, o3⟩ := v3 _ hlt
    have hat : ∀ (d : Nd ℝ) (w : XF ℝ), d.shape = [s.params.gridShape.1, s.params.gridShape.2.1,
        s.params.gridShape.2.2] → d.data[flat s y x r]? = some w → d.at3 y x r = w := by
      intro d w hd hw
      rw [at3_get hd]
      exact getD_of_get _ _ _ hw
    have n5 : vr.num = .fin R := isNumber_num hq.radius
    have n6 : vi.num = .fin I := isNumber_num hq.inclination
    have n7 : vt.num = .fin T := isNumber_num hq.tilt
    have n8 : vp.num = .fin p := isNumber_num hq.impact
    have hD : (Shallot.distances vr.num vi.num vt.num vp.num s.params.dy.data s.params.gridShape.1
      s.params.gridShape.2.1 s.params.gridShape.2.2 d1 d2 d3).data[flat s y x r]? = some (Shallot.distance
        (.fin R) (.fin I) (.fin T) (.fin p) w1 w2 w3 (.fin (rowAt a b p s.params.gridShape.1 y))) := by
      unfold Shallot.distances flat
      rw [cubeOf_get _ _ _ _ hy hx hr, hat _ _ g1 q1, hat _ _ g2 q2, hat _ _ g3 q3,
        n5, n6, n7, n8, rowPosition_fin _ a b p y h0 h1 hne, hlen]
    rw [hD]
    have p1 := seen_plain (hi _ (Or.inl rfl)) o1
    have p2 := seen_plain (hi _ (Or.inr (Or.inl rfl))) o2
    have p3 := seen_plain (hi _ (Or.inr (Or.inr rfl))) o3
    by_cases hn : w1 = .nan ∨ w2 = .nan ∨ w3 = .nan
    · right
      rw [distance_nan R I T p _ w1 w2 w3 p1 p2 p3 hn]
      refine ⟨fun u v w hsh => ?_, rfl⟩
      rcases hn with rfl | rfl | rfl
      · cases seen_unique o1 hsh.radius
      · cases seen_unique o2 hsh.inclination
      · cases seen_unique o3 hsh.tilt
    · left
      push Not at hn
      obtain ⟨u, rfl⟩ := p1.resolve_left hn.1
      obtain ⟨v, rfl⟩ := p2.resolve_left hn.2.1
      obtain ⟨w, rfl⟩ := p3.resolve_left hn.2.2
      exact ⟨u, v, w, ⟨o1, o2, o3⟩, by rw [distance_fin]⟩

/-- **C47, the part that holds.**  Every valid query, when at least one grid point has numbers to be read,
gets the answer with the smallest distance: the answer is the grid point of its indices, the distance is
that between the query and the point's own radius, inclination and tilt and the position the code gives to
its row, and no other grid point with numbers has a smaller one.  If no grid point has numbers a `ValueError`
is raised.  Nothing but elements under masks changes.

What is missing: the position of a row should be its `dy` (`C47_false`). -/
theorem C47_closest_partial (s : Shallot ℝ) (hs : Sound s) (hi : NoInfinities s) (m : Bool)
    (vr vi vt vp : PyVal ℝ) (R I T p a b : ℝ) (hq : Query vr vi vt vp R I T p)
    (h0 : s.params.dy.data.headD .nan = .fin a) (h1 : s.params.dy.data.getLastD .nan = .fin b) :
    ∃ (res : Except Err (Shallot.Closest ℝ)) (s' : Shallot ℝ),
      Shallot.closestPoint vr vi vt vp (.bool m) s = (res, s') ∧ Faded s s' ∧
      ((∀ y x r u v w, y < s.params.gridShape.1 → x < s.params.gridShape.2.1 → r < s.params.gridShape.2.2 →
          ¬ Shown s m (flat s y x r) u v w) → res = .error .valueError) ∧
      ((∃ y x r u v w, y < s.params.gridShape.1 ∧ x < s.params.gridShape.2.1 ∧ r < s.params.gridShape.2.2 ∧
          Shown s m (flat s y x r) u v w) →
        ∃ (c : Shallot.Closest ℝ) (y x r : ℕ) (u v w : ℝ), res = .ok c ∧ c.indices = (y, x, r) ∧
          y < s.params.gridShape.1 ∧ x < s.params.gridShape.2.1 ∧ r < s.params.gridShape.2.2 ∧
          s.params.dy.data[y]? = some c.coordinates.1 ∧ s.params.dx.data[x]? = some c.coordinates.2.1 ∧
          s.params.rfArray.data[r]? = some c.coordinates.2.2 ∧
          Shown s m (flat s y x r) u v w ∧
          c.distance = .fin (apart R I T p u v w (rowAt a b p s.params.gridShape.1 y)) ∧
          ∀ y' x' r' u' v' w', y' < s.params.gridShape.1 → x' < s.params.gridShape.2.1 →
            r' < s.params.gridShape.2.2 → Shown s m (flat s y' x' r') u' v' w' →
            apart R I T p u v w (rowAt a b p s.params.gridShape.1 y) ≤
              apart R I T p u' v' w' (rowAt a b p s.params.gridShape.1 y')) := by
  obtain ⟨D, s', hf, hc, hl, hD⟩ := closest_reads s hs hi m vr vi vt vp R I T p a b hq h0 h1
  have hval : ∀ i < s.params.gridShape.1 * s.params.gridShape.2.1 * s.params.gridShape.2.2,
      ∃ y x r, (y, x, r) = unravel s.params.gridShape.2.1 s.params.gridShape.2.2 i ∧
        y < s.params.gridShape.1 ∧ x < s.params.gridShape.2.1 ∧ r < s.params.gridShape.2.2 ∧
        flat s y x r = i := by
    intro i hi
    have hun := unravel_spec hi
    exact ⟨_, _, _, rfl, hun.1, hun.2.1, hun.2.2.1, hun.2.2.2⟩
  refine ⟨_, s', hc, hf, ?_, ?_⟩
  · intro hno
    unfold Shallot.closestOf
    rw [(nanargmin_error D.data .valueError).2 ⟨rfl, ?_⟩, error_bind]
    intro v hv
    obtain ⟨i, hi⟩ := List.mem_iff_getElem?.1 hv
    have hilt : i < D.data.length := (List.getElem?_eq_some_iff.1 hi).1
    obtain ⟨y, x, r, -, hy, hx, hr, rfl⟩ := hval i (by rw [← hl]; exact hilt)
    rcases hD y x r hy hx hr with ⟨u, v', w, hsh, -⟩ | ⟨-, h⟩
    · exact absurd hsh (hno y x r u v' w hy hx hr)
    · rw [hi] at h
      exact Option.some.inj h
  · rintro ⟨y0, x0, r0, u0, v0, w0, hy0, hx0, hr0, hsh0⟩
    have hplain : ∀ v ∈ D.data, Plain v := by
      intro v hv
      obtain ⟨i, hi⟩ := List.mem_iff_getElem?.1 hv
      have hilt : i < D.data.length := (List.getElem?_eq_some_iff.1 hi).1
      obtain ⟨y, x, r, -, hy, hx, hr, rfl⟩ := hval i (by rw [← hl]; exact hilt)
      rcases hD y x r hy hx hr with ⟨u, v', w, hsh, h⟩ | ⟨-, h⟩ <;> rw [hi] at h
      · exact Or.inr ⟨_, Option.some.inj h⟩
      · exact Or.inl (Option.some.inj h)
    have hD0 : ∀ y x r u v w, y < s.params.gridShape.1 → x < s.params.gridShape.2.1 →
        r < s.params.gridShape.2.2 → Shown s m (flat s y x r) u v w → D.data[flat s y x r]? =
          some (.fin (apart R I T p u v w (rowAt a b p s.params.gridShape.1 y))) := by
      intro y x r u v w hy hx hr hsh
      rcases hD y x r hy hx hr with ⟨u', v', w', hsh', h⟩ | ⟨h, -⟩
      · cases seen_unique hsh.radius hsh'.radius
        cases seen_unique hsh.inclination hsh'.inclination
        cases seen_unique hsh.tilt hsh'.tilt
        exact h
      · exact absurd hsh (h u v w)
    obtain ⟨i, hi'⟩ : ∃ i, nanargmin D.data = .ok i := by
      cases h : nanargmin D.data with
      | ok i => exact ⟨i, rfl⟩
      | error e =>
        have := ((nanargmin_error _ _).1 h).2 _ (List.mem_of_getElem? (hD0 _ _ _ _ _ _ hy0 hx0 hr0 hsh0))
        cases this
    obtain ⟨hilt, q, hq1, hq2⟩ := nanargmin_plain D.data hplain i hi'
    obtain ⟨y, x, r, hun, hy, hx, hr, hfl⟩ := hval i (by rw [← hl]; exact hilt)
    have hDi : D.data[i]? = some (.fin q) := by
      rw [List.getElem?_eq_getElem hilt]
      have : sampleAt D.data i = D.data[i] := by
        unfold sampleAt
        rw [List.getD_eq_getElem?_getD, List.getElem?_eq_getElem hilt]; rfl
      rw [← this, hq1]
    rcases hD y x r hy hx hr with ⟨u, v, w, hsh, h⟩ | ⟨-, h⟩
    swap
    · rw [hfl, hDi] at h; cases h
    rw [hfl, hDi] at h
    obtain rfl : q = _ := XF.fin.inj (Option.some.inj h)
    have hgrid := hs.shaped.grid
    have hcd : ∀ (l : List (XF ℝ)) (k : ℕ), k < l.length → l[k]? = some (l.getD k .nan) := by
      intro l k hk
      rw [List.getD_eq_getElem?_getD, List.getElem?_eq_getElem hk]; rfl
    refine ⟨⟨(s.params.dy.data.getD y .nan, s.params.dx.data.getD x .nan, s.params.rfArray.data.getD r .nan),
      (y, x, r), .fin (apart R I T p u v w (rowAt a b p s.params.gridShape.1 y))⟩, y, x, r, u, v, w, ?_, rfl, hy, hx,
      hr, hcd _ _ ?_, hcd _ _ ?_, hcd _ _ ?_, hsh, rfl, ?_⟩
    · unfold Shallot.closestOf
      rw [hi', ok_bind, ← hun, hq2]
      rfl
    · rw [hgrid] at hy; exact hy
    · rw [hgrid] at hx; exact hx
    · rw [hs.shaped.rfArray]; rw [hgrid] at hr; exact hr
    · intro y' x' r' u' v' w' hy' hx' hr' hsh'
      have hm := (nanmin_spec D.data).2 _ hq2
      have := hm.2.2 _ (List.mem_of_getElem? (hD0 _ _ _ _ _ _ hy' hx' hr' hsh')) (by simp)
      rw [lessEq_iff] at this
      simpa [XF.le] using this

theorem apart_nonneg (R I T p a b c y : ℝ) : 0 ≤ apart R I T p a b c y := sqrt_nonneg _

theorem apart_zero {R I T p a b c y : ℝ} (h : apart R I T p a b c y = 0) : y = p := by
  unfold apart at h
  have h' := (sqrt_eq_zero (by positivity)).1 h
  have : (y - p) ^ 2 = 0 := by nlinarith [sq_nonneg (a - R), sq_nonneg (b - I), sq_nonneg (c - T), sq_nonneg (y - p)]
  have := pow_eq_zero_iff (two_ne_zero) |>.1 this
  linarith

/-- **C47, the first row.**  A query equal to the radius, inclination, tilt and `dy` of a grid point in the
first row has distance 0. -/
theorem C47_first_row_partial (s : Shallot ℝ) (hs : Sound s) (hi : NoInfinities s) (m : Bool)
    (vr vi vt vp : PyVal ℝ) (R I T a b : ℝ) (hq : Query vr vi vt vp R I T a)
    (h0 : s.params.dy.data.headD .nan = .fin a) (h1 : s.params.dy.data.getLastD .nan = .fin b) (x r : ℕ)
    (hx : x < s.params.gridShape.2.1) (hr : r < s.params.gridShape.2.2)
    (hsh : Shown s m (flat s 0 x r) R I T) :
    ∃ c s', Shallot.closestPoint vr vi vt vp (.bool m) s = (.ok c, s') ∧ c.distance = .fin 0 := by
  have hy : 0 < s.params.gridShape.1 := by
    rw [hs.shaped.grid]
    refine List.length_pos_iff.2 fun h => ?_
    rw [h] at h0
    cases h0
  obtain ⟨res, s', h2, -, -, h3⟩ := C47_closest_partial s hs hi m vr vi vt vp R I T a a b hq h0 h1
  obtain ⟨c, y', x', r', u, v, w, rfl, -, -, -, -, -, -, -, -, h4, h5⟩ :=
    h3 ⟨0, x, r, R, I, T, hy, hx, hr, hsh⟩
  refine ⟨c, s', h2, ?_⟩
  have h6 := h5 0 x r R I T hy hx hr hsh
  have hrow : rowAt a b a s.params.gridShape.1 0 = a := by
    unfold rowAt
    simp only [Nat.cast_zero, zero_div, zero_mul, add_zero]
    rw [if_neg (fun h => by linarith [h.1, h.2]), if_neg (fun h => by linarith [h.1, h.2])]
  have h7 : apart R I T a R I T (rowAt a b a s.params.gridShape.1 0) = 0 := by
    rw [hrow]; simp [apart]
  rw [h7] at h6
  rw [h4, le_antisymm h6 (apart_nonneg _ _ _ _ _ _ _ _)]

/-- **C47 is false.**  In a grid with `dy` from `a` to `b > a` no query with the impact parameter `b` of the
last row has distance 0, whatever its radius, inclination and tilt. -/
theorem C47_false (s : Shallot ℝ) (hs : Sound s) (hi : NoInfinities s) (m : Bool)
    (vr vi vt vp : PyVal ℝ) (R I T a b : ℝ) (hq : Query vr vi vt vp R I T b) (hab : a < b)
    (h0 : s.params.dy.data.headD .nan = .fin a) (h1 : s.params.dy.data.getLastD .nan = .fin b)
    (c : Shallot.Closest ℝ) (s' : Shallot ℝ)
    (h : Shallot.closestPoint vr vi vt vp (.bool m) s = (.ok c, s')) : c.distance ≠ .fin 0 := by
  obtain ⟨res, s'', h2, -, h3, h4⟩ := C47_closest_partial s hs hi m vr vi vt vp R I T b a b hq h0 h1
  rw [h] at h2
  obtain ⟨rfl, rfl⟩ : Except.ok c = res ∧ s' = s'' := by
    injection h2 with h h'
    exact ⟨h, h'⟩
  by_cases hex : ∃ y x r u v w, y < s.params.gridShape.1 ∧ x < s.params.gridShape.2.1 ∧
      r < s.params.gridShape.2.2 ∧ Shown s m (flat s y x r) u v w
  swap
  · push Not at hex
    cases h3 hex
  obtain ⟨c', y, x, r, u, v, w, hc, -, hy, -, -, -, -, -, -, hd, -⟩ := h4 hex
  cases hc
  rw [hd]
  intro h5
  have h6 := apart_zero (XF.fin.inj h5)
  unfold rowAt at h6
  split_ifs at h6 with h7 h8
  · linarith [h7.1]
  · linarith [h8.1]
  · have hn : (0 : ℝ) < s.params.gridShape.1 := by exact_mod_cast (Nat.zero_le y).trans_lt hy
    have hlt : (y : ℝ) / s.params.gridShape.1 < 1 := by
      rw [div_lt_one hn]; exact_mod_cast hy
    nlinarith

/-- The rows that the code takes into account for impact parameter `p`. -/
def Spec.Kept (a b p : ℝ) (n k : ℕ) : Prop :=
  ¬ (p < 0 ∧ 0 < a + (k : ℝ) / n * (b - a)) ∧ ¬ (0 < p ∧ a + (k : ℝ) / n * (b - a) < 0)

theorem apart_near (R I T p a b c y z : ℝ) :
    apart R I T p a b c y ≤ apart R I T p a b c z + |y - z| := by
  have h0 := apart_nonneg R I T p a b c z
  have h1 : |z - p| ≤ apart R I T p a b c z := by
    unfold apart
    apply le_sqrt_of_sq_le
    rw [sq_abs]
    nlinarith [sq_nonneg (a - R), sq_nonneg (b - I), sq_nonneg (c - T)]
  have h2 : apart R I T p a b c z ^ 2 = (a - R) ^ 2 + (b - I) ^ 2 + (c - T) ^ 2 + (z - p) ^ 2 :=
    sq_sqrt (by positivity)
  have h3 : (y - p) ^ 2 = (z - p) ^ 2 + 2 * ((y - z) * (z - p)) + (y - z) ^ 2 := by ring
  have h4 : (y - z) * (z - p) ≤ |y - z| * apart R I T p a b c z :=
    (le_abs_self _).trans (by rw [abs_mul]; exact mul_le_mul_of_nonneg_left h1 (abs_nonneg _))
  have h5 : |y - z| ^ 2 = (y - z) ^ 2 := sq_abs _
  have h6 : 0 ≤ |y - z| := abs_nonneg _
  show √_ ≤ _
  rw [sqrt_le_left (by positivity)]
  nlinarith

/-- **C47, how far off the answer is.**  With evenly spaced rows, the answer is the closest grid point up to
twice the row spacing: measured with the rows' own `dy`, no grid point in the rows taken into account is
closer than the answer by more than `2 (b - a) / n`. -/
theorem C47_near_partial (s : Shallot ℝ) (hs : Sound s) (hi : NoInfinities s) (m : Bool)
    (vr vi vt vp : PyVal ℝ) (R I T p a b : ℝ) (hq : Query vr vi vt vp R I T p) (hab : a < b) (n : ℕ)
    (hn : 2 ≤ n) (hev : Evenly s.params.dy.data a b n) (c : Shallot.Closest ℝ) (s' : Shallot ℝ)
    (h : Shallot.closestPoint vr vi vt vp (.bool m) s = (.ok c, s')) :
    ∃ (y x r : ℕ) (u v w d : ℝ), c.indices = (y, x, r) ∧ c.coordinates.1 = .fin d ∧
      Shown s m (flat s y x r) u v w ∧ (Kept a b p n y →
      ∀ y' x' r' u' v' w' d', y' < s.params.gridShape.1 → x' < s.params.gridShape.2.1 →
        r' < s.params.gridShape.2.2 → Shown s m (flat s y' x' r') u' v' w' →
        s.params.dy.data[y']? = some (.fin d') → Kept a b p n y' →
        apart R I T p u v w d ≤ apart R I T p u' v' w' d' + 2 * ((b - a) / n)) := by
  have hne : s.params.dy.data ≠ [] := by
    intro h; have := hev.first; rw [h] at this; cases this
  have h0 : s.params.dy.data.headD .nan = .fin a := by
    rw [List.headD_eq_head?_getD, List.head?_eq_getElem?, hev.first]; rfl
  have h1 : s.params.dy.data.getLastD .nan = .fin b := by
    rw [List.getLastD_eq_getLast?, List.getLast?_eq_getElem?, hev.length, hev.last hn]; rfl
  have hgs : s.params.gridShape.1 = n := by rw [hs.shaped.grid]; exact hev.length
  obtain ⟨res, s'', h2, -, h3, h4⟩ := C47_closest_partial s hs hi m vr vi vt vp R I T p a b hq h0 h1
  rw [h] at h2
  obtain ⟨rfl, rfl⟩ : Except.ok c = res ∧ s' = s'' := by
    injection h2 with h h'
    exact ⟨h, h'⟩
  by_cases hex : ∃ y x r u v w, y < s.params.gridShape.1 ∧ x < s.params.gridShape.2.1 ∧
      r < s.params.gridShape.2.2 ∧ Shown s m (flat s y x r) u v w
  swap
  · push Not at hex
    cases h3 hex
  obtain ⟨c', y, x, r, u, v, w, hc, hind, hy, -, -, hdy, -, -, hsh, -, hmin⟩ := h4 hex
  cases hc
  obtain ⟨h', hpos, hstep⟩ := hev.step
  have hn0 : (0 : ℝ) < n := by exact_mod_cast (by omega : 0 < n)
  have hn1 : (0 : ℝ) < (n : ℝ) - 1 := by
    have : (1 : ℝ) < n := by exact_mod_cast hn
    linarith
  have hh : h' = (b - a) / (n - 1) := by
    have e1 := hstep (n - 1) (by omega)
    rw [hev.last hn] at e1
    have e2 := XF.fin.inj (Option.some.inj e1)
    rw [Nat.cast_sub (by omega), Nat.cast_one] at e2
    rw [eq_div_iff hn1.ne']
    linarith
  have hoff : ∀ k : ℕ, k < n → |a + k * h' - (a + k / n * (b - a))| ≤ (b - a) / n := by
    intro k hk
    have e : a + k * h' - (a + k / n * (b - a)) = (k / ((n : ℝ) - 1)) * ((b - a) / n) := by
      rw [hh]; field_simp; ring
    have hk1 : (k : ℝ) ≤ n - 1 := by
      have : k ≤ n - 1 := by omega
      calc (k : ℝ) ≤ ((n - 1 : ℕ) : ℝ) := by exact_mod_cast this
        _ = n - 1 := by rw [Nat.cast_sub (by omega), Nat.cast_one]
    have hq0 : 0 ≤ (b - a) / n := div_nonneg (by linarith) hn0.le
    rw [e, abs_of_nonneg (mul_nonneg (div_nonneg (Nat.cast_nonneg _) hn1.le) hq0)]
    calc (k / ((n : ℝ) - 1)) * ((b - a) / n) ≤ 1 * ((b - a) / n) :=
          mul_le_mul_of_nonneg_right ((div_le_one hn1).2 hk1) hq0
      _ = _ := one_mul _
  rw [hgs] at hy hmin
  have hd := hstep y hy
  rw [hdy] at hd
  refine ⟨y, x, r, u, v, w, _, hind, Option.some.inj hd, hsh, ?_⟩
  intro hk y' x' r' u' v' w' d' hy' hx' hr' hsh' hd' hk'
  rw [hgs] at hy'
  have hrow : ∀ k, Kept a b p n k → rowAt a b p n k = a + k / n * (b - a) := by
    intro k hk
    unfold rowAt
    rw [if_neg hk.1, if_neg hk.2]
  have h5 := hmin y' x' r' u' v' w' hy' hx' hr' hsh'
  rw [hrow _ hk, hrow _ hk'] at h5
  have e' := hstep y' hy'
  rw [hd'] at e'
  rw [XF.fin.inj (Option.some.inj e')]
  have h6 := apart_near R I T p u v w (a + y * h') (a + y / n * (b - a))
  have h7 := apart_near R I T p u' v' w' (a + y' / n * (b - a)) (a + y' * h')
  have h8 := hoff y hy
  have h9 := hoff y' hy'
  rw [abs_sub_comm] at h9
  linarith

/-- Complete grids hold no infinities. -/
theorem complete_noInfinities (minX maxX numX minY maxY numY maxRf numRf : PyVal ℝ) (g : GridParams ℝ)
    (hg : GridParams.new minX maxX numX minY maxY numY maxRf numRf = .ok g) (a b c d m : ℝ)
    (ha : IsNumber false minX (.fin a)) (hb : IsNumber false maxX (.fin b))
    (hc : IsNumber false minY (.fin c)) (hd : IsNumber false maxY (.fin d))
    (hm : IsNumber false maxRf (.fin m))
    (hext : g.extendable = true → 2 ≤ g.sliceShape.1 ∧ 2 ≤ g.sliceShape.2) (v k : PyVal ℝ)
    (n : ℕ) (hn : Count v n) (keep : Bool) (hk : boolean k = .ok keep) (s : Shallot ℝ)
    (g' : GridParams ℝ) (h : Shallot.new v k g = (.ok s, g')) (hs : Sound s) : NoInfinities s := by
  have key : ∀ (c : Cube) (p : GProp ℝ), s.prop c = some p → (∀ y x r, y < s.params.gridShape.1 →
      x < s.params.gridShape.2.1 → r < s.params.gridShape.2.2 → Plain (p.data.at3 y x r)) →
      ∀ v ∈ p.data.data, Plain v := by
    intro c p hp hall v hv
    have hsh := hs.props c p hp
    obtain ⟨i, hi⟩ := List.mem_iff_getElem?.1 hv
    have hilt : i < p.data.data.length := (List.getElem?_eq_some_iff.1 hi).1
    rw [hsh.data.2] at hilt
    have hun := unravel_spec hilt
    have := hall _ _ _ hun.1 hun.2.1 hun.2.2.1
    rw [at3_get hsh.data.1, hun.2.2.2, getD_of_get _ _ _ hi] at this
    exact this
  have hall : ∀ y x r, y < s.params.gridShape.1 → x < s.params.gridShape.2.1 →
      r < s.params.gridShape.2.2 → Plain (s.diskRadius.data.at3 y x r) ∧
        Plain (s.inclination.data.at3 y x r) ∧ Plain (s.tilt.data.at3 y x r) := by
    intro y x r hy hx hr
    obtain ⟨dx, dy, -, -, h⟩ := C75_grid _ _ _ _ _ _ _ _ g hg a b c d m ha hb hc hd hm hext v k n hn keep hk s g'
      h y x r hy hx hr
    rcases h with ⟨h1, h2, h3, -⟩ | ⟨fx, fy, a, b, c, -, -, h1, h2, h3, -⟩ <;> rw [h1, h2, h3]
    · exact ⟨Or.inl rfl, Or.inl rfl, Or.inl rfl⟩
    · exact ⟨Or.inr ⟨_, rfl⟩, Or.inr ⟨_, rfl⟩, Or.inr ⟨_, rfl⟩⟩
  rintro p (rfl | rfl | rfl)
  · exact key .diskRadius _ rfl fun y x r hy hx hr => (hall y x r hy hx hr).1
  · exact key .inclination _ rfl fun y x r hy hx hr => (hall y x r hy hx hr).2.1
  · exact key .tilt _ rfl fun y x r hy hx hr => (hall y x r hy hx hr).2.2

/-- The witness of `C47_false`, and a grid that meets the hypotheses of the theorems above: in the grid with
`dy = -1, 0, 1` the query for the parameters of the disk at the centre (1, 1) itself succeeds with a
distance other than 0; that for the disk at (1, -1) has distance 0. -/
theorem C47_false_witness : ∃ (s : Shallot ℝ) (a b c : ℝ), Sound s ∧ NoInfinities s ∧
    s.params.gridShape = (3, 3, 3) ∧ Evenly s.params.dy.data (-1) 1 3 ∧
    s.params.dy.data[2]? = some (.fin 1) ∧
    Shown s true (flat s 2 2 1) a b c ∧
    Query (.float (.fin a)) (.float (.fin b)) (.float (.fin c)) (.int 1) a b c 1 ∧
    (∃ cl s', Shallot.closestPoint (.float (.fin a)) (.float (.fin b)) (.float (.fin c)) (.int 1) (.bool true) s =
      (.ok cl, s') ∧ cl.distance ≠ .fin 0) ∧
    ∃ cl s' a' b' c', Shown s true (flat s 0 2 1) a' b' c' ∧
      Shallot.closestPoint (.float (.fin a')) (.float (.fin b')) (.float (.fin c')) (.int (-1)) (.bool true) s =
        (.ok cl, s') ∧ cl.distance = .fin 0 := by
  obtain ⟨s, d, h1, h2⟩ := throwAway_grid
  have hs := sound_complete h2
  have hi : NoInfinities s := complete_noInfinities _ _ _ _ _ _ _ _ throwAway throwAway_new 0 1 0 1 2
    (Or.inl ⟨0, .int 0, by simp⟩) (Or.inl ⟨1, .int 1, by simp⟩) (Or.inl ⟨0, .int 0, by simp⟩)
    (Or.inl ⟨1, .int 1, by simp⟩) (Or.inl ⟨2, .int 2, by simp⟩) (fun _ => ⟨le_rfl, le_rfl⟩) (.int 100)
    (.bool false) 100 count_hundred false rfl s _ h1 hs
  have hrf : s.params.rf.data.length = 2 := by
    rw [h2.rf]; exact throwAway_length.2.2
  have hl : linspace (.fin 0) (.fin 1) 2 = [XF.fin (0 : ℝ), .fin 1] := two_points 0 1 one_pos
  have hex : (builtGrid throwAway (.int 100) d).params.extendable = true := by
    show throwAway.extendable = true
    simp [throwAway, gridOf, hl, XF.eqb]
  have mx := h2.vectorX hex
  have my := h2.vectorY hex
  have hgs : s.params.gridShape = (3, 3, 3) := by
    rw [h2.shaped.grid, hrf, mx.length', my.length']; rfl
  have hdy : s.params.dy.data[0]? = some (.fin (-1)) ∧ s.params.dy.data[1]? = some (.fin 0) ∧
      s.params.dy.data[2]? = some (.fin 1) := by
    obtain ⟨w, h3, h4, h5⟩ := my.values 1 (by show 1 < 2; norm_num)
    have h3' : ([XF.fin 0, .fin 1] : List (XF ℝ))[1]? = some (.fin w) := by rw [← hl]; exact h3
    obtain rfl : (1 : ℝ) = w := by simpa using h3'
    obtain ⟨w', k3, k4, -⟩ := my.values 0 (by show 0 < 2; norm_num)
    have k3' : ([XF.fin 0, .fin 1] : List (XF ℝ))[0]? = some (.fin w') := by rw [← hl]; exact k3
    obtain rfl : (0 : ℝ) = w' := by simpa using k3'
    exact ⟨h5, k4, h4⟩
  have hlen : s.params.dy.data.length = 3 := by rw [my.length']; rfl
  have hev : Evenly s.params.dy.data (-1) 1 3 := by
    refine ⟨hlen, hdy.1, fun _ => hdy.2.2, 1, one_pos, ?_⟩
    intro j hj
    have : j = 0 ∨ j = 1 ∨ j = 2 := by omega
    rcases this with rfl | rfl | rfl
    · rw [hdy.1]; norm_num
    · rw [hdy.2.1]; norm_num
    · rw [hdy.2.2]; norm_num
  have hshown : ∀ y, y = 0 ∨ y = 2 → ∃ a b c : ℝ, Shown s true (flat s y 2 1) a b c ∧ 0 ≤ a ∧
      (0 ≤ b ∧ b ≤ 90) ∧ -180 ≤ c ∧ c ≤ 180 := by
    intro y hy
    obtain ⟨dx, dy, -, e2, h⟩ := C75_grid _ _ _ _ _ _ _ _ throwAway throwAway_new 0 1 0 1 2
      (Or.inl ⟨0, .int 0, by simp⟩) (Or.inl ⟨1, .int 1, by simp⟩) (Or.inl ⟨0, .int 0, by simp⟩)
      (Or.inl ⟨1, .int 1, by simp⟩) (Or.inl ⟨2, .int 2, by simp⟩) (fun _ => ⟨le_rfl, le_rfl⟩) (.int 100)
      (.bool false) 100 count_hundred false rfl s _ h1 y 2 1 (by rw [hgs]; rcases hy with rfl | rfl <;> norm_num)
      (by rw [hgs]; norm_num) (by rw [hgs]; norm_num)
    have hd : ∃ dy : ℝ, dy ≠ 0 ∧ s.params.dy.data[y]? = some (.fin dy) := by
      rcases hy with rfl | rfl
      · exact ⟨_, by norm_num, hdy.1⟩
      · exact ⟨_, one_ne_zero, hdy.2.2⟩
    obtain ⟨-, p, hp, hcub, -, hval⟩ := C57_grid _ _ _ _ _ _ _ _ throwAway throwAway_new 0 1 0 1 2
      (Or.inl ⟨0, .int 0, by simp⟩) (Or.inl ⟨1, .int 1, by simp⟩) (Or.inl ⟨0, .int 0, by simp⟩)
      (Or.inl ⟨1, .int 1, by simp⟩) (Or.inl ⟨2, .int 2, by simp⟩) (fun _ => ⟨le_rfl, le_rfl⟩) (.int 100)
      (.bool false) 100 count_hundred false rfl s _ h1
    obtain ⟨dx', dy', -, hdy', good, -⟩ := hval y 2 (by rw [hgs]; rcases hy with rfl | rfl <;> norm_num)
      (by rw [hgs]; norm_num)
    obtain ⟨dy0, hd0, hd1⟩ := hd
    rw [getD_of_get _ _ _ hd1] at hdy'
    cases hdy'
    rw [hrf] at good
    obtain ⟨Rr, -, hR, -⟩ := good (Or.inl hd0)
    rcases h with ⟨hn, -⟩ | ⟨fx, fy, a, b, c, -, -, k1, k2, k3, -, -, -, k4, k5, k6, -, k8, k9, -⟩
    · have hR' : s.diskRadius.data.at3 y 2 1 = .fin Rr := hR
      rw [hn] at hR'; cases hR'
    have hmask : ¬ MaskedAt s (flat s y 2 1) := by
      unfold MaskedAt Marked
      rw [h2.masks.1, h2.masks.2.1, h2.masks.2.2.1, h2.nothing.1]
      simp
    have hseen : ∀ (cb : Cube) (p : GProp ℝ) (v : ℝ), s.prop cb = some p → p.mask = none →
        p.data.at3 y 2 1 = .fin v → Seen s true p (flat s y 2 1) (.fin v) := by
      intro cb p v hp hm hv
      have hsh := hs.props cb p hp
      refine ⟨?_, fun _ => ?_⟩
      · rintro (⟨k, hk, -⟩ | ⟨-, h⟩)
        · rw [hm] at hk; cases hk
        · exact absurd h hmask
      · rw [at3_get hsh.data.1] at hv
        have hlt : flat s y 2 1 < p.data.data.length := by
          rw [hsh.data.2]
          refine flat_lt ?_ ?_ ?_ <;> rw [hgs]
          · rcases hy with rfl | rfl <;> norm_num
          · norm_num
          · norm_num
        rw [List.getElem?_eq_getElem hlt]
        rw [List.getD_eq_getElem?_getD] at hv
        have : p.data.data[flat s y 2 1]? = some p.data.data[flat s y 2 1] := List.getElem?_eq_getElem hlt
        unfold flat at this
        rw [this] at hv
        exact congrArg some hv
    exact ⟨a, b, c, ⟨hseen .diskRadius _ a rfl h2.masks.1 k1, hseen .inclination _ b rfl h2.masks.2.1 k2,
      hseen .tilt _ c rfl h2.masks.2.2.1 k3⟩, k4.le, ⟨k5, k6.le⟩, by linarith, k9⟩
  have h0 : s.params.dy.data.headD .nan = .fin (-1) := by
    rw [List.headD_eq_head?_getD, List.head?_eq_getElem?, hdy.1]; rfl
  have h1' : s.params.dy.data.getLastD .nan = .fin 1 := by
    rw [List.getLastD_eq_getLast?, List.getLast?_eq_getElem?, hlen, hdy.2.2]; rfl
  have hfl : ∀ x : ℝ, IsNumber false (.float (.fin x)) (.fin x) := fun x => Or.inr ⟨rfl, .float _⟩
  obtain ⟨a, b, c, q1, q2, q3, q4⟩ := hshown 2 (Or.inr rfl)
  obtain ⟨a', b', c', q1', q2', q3', q4'⟩ := hshown 0 (Or.inl rfl)
  have hq : Query (.float (.fin a)) (.float (.fin b)) (.float (.fin c)) (.int 1) a b c 1 :=
    ⟨hfl a, hfl b, hfl c, Or.inl ⟨1, .int 1, by simp⟩, q2, q3, q4⟩
  have hq' : Query (.float (.fin a')) (.float (.fin b')) (.float (.fin c')) (.int (-1)) a' b' c' (-1) :=
    ⟨hfl a', hfl b', hfl c', Or.inl ⟨-1, .int (-1), by simp⟩, q2', q3', q4'⟩
  refine ⟨s, a, b, c, hs, hi, hgs, hev, hdy.2.2, q1, hq, ?_, ?_⟩
  · obtain ⟨res, s', r1, -, -, r2⟩ := C47_closest_partial s hs hi true _ _ _ _ a b c 1 (-1) 1 hq h0 h1'
    obtain ⟨cl, -, -, -, -, -, -, rfl, -⟩ := r2 ⟨2, 2, 1, a, b, c, by rw [hgs]; norm_num, by rw [hgs]; norm_num,
      by rw [hgs]; norm_num, q1⟩
    exact ⟨cl, s', r1, C47_false s hs hi true _ _ _ _ a b c (-1) 1 hq (by norm_num) h0 h1' cl s' r1⟩
  · obtain ⟨cl, s', r1, r2⟩ := C47_first_row_partial s hs hi true _ _ _ _ a' b' c' (-1) 1 hq' h0 h1' 2 1
      (by rw [hgs]; norm_num) (by rw [hgs]; norm_num) q1'
    exact ⟨cl, s', a', b', c', q1', r1, r2⟩

end Beyonce
