import Verif.ClosestRounded
import Verif.Props.Closest
import Verif.Props.FitRounded
import Verif.Props.AxesRounded
import Verif.Props.DoubleLib

/-!
# C120: the closest grid point in floating point
-/

set_option linter.unusedSectionVars false

namespace Beyonce
open Spec Real

/-! ## Exact arithmetic is the model without rounding -/

theorem rowPosition_exact (dy : List (XF ℝ)) (p : XF ℝ) (k : ℕ) :
    ClosestRounded.rowPosition .exact dy p k = Shallot.rowPosition dy p k := by
  unfold ClosestRounded.rowPosition Shallot.rowPosition
  simp only [FloatLib.sub, FloatLib.mul, FloatLib.add, FloatLib.div]
  simp only [FloatLib.exact, round_same]

theorem distance_exact (R I T p a b c y : XF ℝ) :
    ClosestRounded.distance .exact R I T p a b c y = Shallot.distance R I T p a b c y := by
  unfold ClosestRounded.distance Shallot.distance
  simp only [FloatLib.sub, FloatLib.sq, FloatLib.mul, FloatLib.add, FloatLib.sqrtX]
  simp only [FloatLib.exact, round_same]
  rfl

/-- The plain model is the case of exact arithmetic. -/
theorem closestPoint_exact (r i t p m : PyVal ℝ) :
    ClosestRounded.closestPoint .exact r i t p m = Shallot.closestPoint r i t p m := by
  unfold ClosestRounded.closestPoint Shallot.closestPoint ClosestRounded.distances Shallot.distances
  simp only [distance_exact, rowPosition_exact]

/-! ## Rows -/

/-- The position that the code gives to row `k` of `n` rows from `a` to `b`, on the side it is on. -/
noncomputable def Spec.placeAt (a b : ℝ) (n k : ℕ) : ℝ := a + k / n * (b - a)

/-- How far rounding moves a row at most. -/
noncomputable def Spec.rowError (u a b : ℝ) : ℝ := 7 * u * (|a| + |b - a|)

/-- The same with rounding. -/
noncomputable def Spec.roundedPlace (L : FloatLib ℝ) (a b : ℝ) (n k : ℕ) : ℝ :=
  L.rnd (L.rnd (L.rnd (k / n) * L.rnd (b - a)) + a)

theorem roundedPlace_near {L : FloatLib ℝ} {u : ℝ} (hL : Accurate L u) (hu1 : 100 * u ≤ 1) (a b : ℝ) (n k : ℕ)
    (hk : k < n) : |roundedPlace L a b n k - placeAt a b n k| ≤ rowError u a b := by
  have hu := hL.nonneg
  have hn : (0 : ℝ) < n := by exact_mod_cast (by omega : 0 < n)
  have h1 := Spec.RelNear.mul (c := 3) (Spec.RelNear.rnd_self hL.rnd ((k : ℝ) / n))
    (Spec.RelNear.rnd_self hL.rnd (b - a)) hu (by norm_num) (by norm_num) (by linarith) (by norm_num)
  have h2 := Spec.RelNear.rnd (c := 5) hL.rnd hu h1 (by linarith) (by norm_num)
  set q := L.rnd (L.rnd (k / n) * L.rnd (b - a))
  have hq : |q - k / n * (b - a)| ≤ 5 * u * |k / n * (b - a)| := h2
  have hle : |(k : ℝ) / n * (b - a)| ≤ |b - a| := by
    rw [abs_mul, abs_of_nonneg (div_nonneg (Nat.cast_nonneg _) hn.le)]
    have : (k : ℝ) / n ≤ 1 := (div_le_one hn).2 (by exact_mod_cast hk.le)
    nlinarith [abs_nonneg (b - a)]
  have hr : |roundedPlace L a b n k - (q + a)| ≤ u * |q + a| := hL.rnd _
  have hqa : |q + a| ≤ |a| + (1 + 5 * u) * |b - a| := by
    have e1 := abs_add_le q a
    have e2 := abs_sub_abs_le_abs_sub q ((k : ℝ) / n * (b - a))
    have e3 : 5 * u * |(k : ℝ) / n * (b - a)| ≤ 5 * u * |b - a| := mul_le_mul_of_nonneg_left hle (by positivity)
    linarith
  have e4 : |roundedPlace L a b n k - placeAt a b n k| ≤
      |roundedPlace L a b n k - (q + a)| + |q - k / n * (b - a)| := by
    have : roundedPlace L a b n k - placeAt a b n k =
      (roundedPlace L a b n k - (q + a)) + (q - k / n * (b - a)) := by unfold placeAt; ring
    rw [this]
    exact abs_add_le _ _
  have e5 := mul_le_mul_of_nonneg_left hqa hu
  have e6 : 5 * u * |(k : ℝ) / n * (b - a)| ≤ 5 * u * |b - a| := mul_le_mul_of_nonneg_left hle (by positivity)
  have e7 : u * (5 * u * |b - a|) ≤ 1 * (u * |b - a|) := by
    have : 0 ≤ u * |b - a| := by positivity
    nlinarith
  have e8 : 0 ≤ u * |a| := by positivity
  unfold rowError
  nlinarith

/-- With rounding, every row is on the side of zero that it is on without. -/
def Spec.SameSides (L : FloatLib ℝ) (a b : ℝ) (n : ℕ) : Prop :=
  ∀ k < n, (0 < roundedPlace L a b n k ↔ 0 < placeAt a b n k) ∧ (roundedPlace L a b n k < 0 ↔ placeAt a b n k < 0)

/-- That is so if no row is as near to zero as rounding can move it. -/
theorem sameSides_of_far {L : FloatLib ℝ} {u : ℝ} (hL : Accurate L u) (hu1 : 100 * u ≤ 1) (a b : ℝ) (n : ℕ)
    (h : ∀ k < n, rowError u a b < |placeAt a b n k|) : SameSides L a b n := by
  intro k hk
  have h1 := abs_le.1 (roundedPlace_near hL hu1 a b n k hk)
  have h2 := h k hk
  rcases le_total 0 (placeAt a b n k) with h3 | h3
  · rw [abs_of_nonneg h3] at h2
    constructor <;> constructor <;> intro <;> linarith
  · rw [abs_of_nonpos h3] at h2
    constructor <;> constructor <;> intro <;> linarith

/-- The position of row `k` with rounding. -/
noncomputable def Spec.roundedRow (L : FloatLib ℝ) (a b p : ℝ) (n k : ℕ) : ℝ :=
  if p < 0 ∧ 0 < roundedPlace L a b n k then 10 ^ 7
  else if 0 < p ∧ roundedPlace L a b n k < 0 then -(10 ^ 7)
  else roundedPlace L a b n k

theorem roundedRow_fin (L : FloatLib ℝ) (dy : List (XF ℝ)) (a b p : ℝ) (k : ℕ) (h0 : dy.headD .nan = .fin a)
    (h1 : dy.getLastD .nan = .fin b) (hne : dy ≠ []) :
    ClosestRounded.rowPosition L dy (.fin p) k = .fin (roundedRow L a b p dy.length k) := by
  have hn : (dy.length : ℝ) ≠ 0 := by simpa using hne
  unfold ClosestRounded.rowPosition roundedRow
  simp only [h0, h1, lib_sub, lib_div _ _ _ hn, lib_mul, lib_add, XF.lt_fin, decide_eq_true_eq]
  change (if p < 0 then if 0 < roundedPlace L a b dy.length k then _ else XF.fin (roundedPlace L a b dy.length k)
    else if 0 < p then if roundedPlace L a b dy.length k < 0 then _ else XF.fin (roundedPlace L a b dy.length k)
    else XF.fin (roundedPlace L a b dy.length k)) = _
  by_cases hp : p < 0
  · have hp' : ¬ 0 < p := by linarith
    by_cases hq : 0 < roundedPlace L a b dy.length k
    · simp [hp, hq]
    · simp [hp, hp', hq]
  · by_cases hp' : 0 < p
    · by_cases hq : roundedPlace L a b dy.length k < 0
      · simp [hp, hp', hq]
      · simp [hp, hp', hq]
    · simp [hp, hp']

theorem roundedRow_near {L : FloatLib ℝ} {u : ℝ} (hL : Accurate L u) (hu1 : 100 * u ≤ 1) (a b p : ℝ) (n k : ℕ)
    (hk : k < n) (hside : SameSides L a b n) :
    |roundedRow L a b p n k - rowAt a b p n k| ≤ rowError u a b := by
  obtain ⟨s1, s2⟩ := hside k hk
  have h0 : 0 ≤ rowError u a b := by
    have := hL.nonneg
    unfold rowError
    positivity
  unfold roundedRow rowAt
  change |_ - if p < 0 ∧ 0 < placeAt a b n k then _ else if 0 < p ∧ placeAt a b n k < 0 then _ else placeAt a b n k| ≤ _
  simp only [s1, s2]
  by_cases c1 : p < 0 ∧ 0 < placeAt a b n k
  · rw [if_pos c1, if_pos c1, sub_self, abs_zero]
    exact h0
  · rw [if_neg c1, if_neg c1]
    by_cases c2 : 0 < p ∧ placeAt a b n k < 0
    · rw [if_pos c2, if_pos c2, sub_self, abs_zero]
      exact h0
    · rw [if_neg c2, if_neg c2]
      exact roundedPlace_near hL hu1 a b n k hk

/-! ## Distances -/

/-- The computed distance. -/
noncomputable def Spec.roundedApart (L : FloatLib ℝ) (R I T p a b c y : ℝ) : ℝ :=
  L.sqrt (L.rnd (L.rnd (L.rnd (L.rnd (L.rnd (a - R) * L.rnd (a - R)) + L.rnd (L.rnd (b - I) * L.rnd (b - I))) +
    L.rnd (L.rnd (c - T) * L.rnd (c - T))) + L.rnd (L.rnd (y - p) * L.rnd (y - p))))

theorem distance_sq {L : FloatLib ℝ} {u : ℝ} (hL : Accurate L u) (hu1 : u < 1) (R I T p a b c y : ℝ) :
    UpTo u 6 (L.rnd (L.rnd (L.rnd (L.rnd (L.rnd (a - R) * L.rnd (a - R)) + L.rnd (L.rnd (b - I) * L.rnd (b - I))) +
      L.rnd (L.rnd (c - T) * L.rnd (c - T))) + L.rnd (L.rnd (y - p) * L.rnd (y - p))))
      ((a - R) ^ 2 + (b - I) ^ 2 + (c - T) ^ 2 + (y - p) ^ 2) := by
  have hu := hL.nonneg
  have hs : ∀ d : ℝ, UpTo u 3 (L.rnd (L.rnd d * L.rnd d)) (d ^ 2) := fun d =>
    (within_sq hu1 hL.rnd d).rnd hu1 hL.rnd (sq_nonneg d)
  have h1 := ((hs (a - R)).add (hs (b - I))).rnd hu1 hL.rnd (by positivity)
  have h2 := (h1.add ((hs (c - T)).mono hu hu1 (sq_nonneg _) (by norm_num : 3 ≤ 3 + 1))).rnd hu1 hL.rnd (by positivity)
  exact (h2.add ((hs (y - p)).mono hu hu1 (sq_nonneg _) (by norm_num : 3 ≤ 3 + 1 + 1))).rnd hu1 hL.rnd (by positivity)

/-- The computed distance is the distance up to four roundings. -/
theorem roundedApart_near {L : FloatLib ℝ} {u : ℝ} (hL : Accurate L u) (hu1 : u < 1) (R I T p a b c y : ℝ) :
    UpTo u 4 (roundedApart L R I T p a b c y) (apart R I T p a b c y) := by
  have hu := hL.nonneg
  have h := distance_sq hL hu1 R I T p a b c y
  unfold roundedApart apart
  set q := L.rnd (L.rnd (L.rnd (L.rnd (L.rnd (a - R) * L.rnd (a - R)) + L.rnd (L.rnd (b - I) * L.rnd (b - I))) +
      L.rnd (L.rnd (c - T) * L.rnd (c - T))) + L.rnd (L.rnd (y - p) * L.rnd (y - p)))
  set d := (a - R) ^ 2 + (b - I) ^ 2 + (c - T) ^ 2 + (y - p) ^ 2
  have hd : 0 ≤ d := by positivity
  have hq : 0 ≤ q := h.nonneg hu1 hd
  have e : (1 - u) ^ 6 = ((1 - u) ^ 3) ^ 2 := by ring
  have h3 : 0 ≤ (1 - u) ^ 3 := pow_nonneg (by linarith) _
  have hr : UpTo u 3 (√q) (√d) := by
    constructor
    · have := sqrt_le_sqrt h.1
      rwa [e, sqrt_mul hd, sqrt_sq h3] at this
    · have := sqrt_le_sqrt h.2
      rwa [e, sqrt_mul hq, sqrt_sq h3] at this
  have hs : UpTo u 1 (L.sqrt q) (√q) := by
    have h4 : |L.sqrt q - √q| ≤ u * |√q| := hL.sqrt q hq
    rw [abs_of_nonneg (sqrt_nonneg q), abs_le] at h4
    rw [UpTo, pow_one]
    refine ⟨by linarith [h4.1], ?_⟩
    have h5 := mul_le_mul_of_nonneg_right (show L.sqrt q ≤ (1 + u) * √q by linarith [h4.2]) (by linarith : 0 ≤ 1 - u)
    have : 0 ≤ u ^ 2 * √q := by positivity
    linarith
  have := hs.trans hu1 hr
  exact this

theorem roundedDistance_fin {L : FloatLib ℝ} {u : ℝ} (hL : Accurate L u) (hu1 : u < 1) (R I T p a b c y : ℝ) :
    ClosestRounded.distance L (.fin R) (.fin I) (.fin T) (.fin p) (.fin a) (.fin b) (.fin c) (.fin y) =
      .fin (roundedApart L R I T p a b c y) := by
  unfold ClosestRounded.distance roundedApart
  simp only [lib_sub, FloatLib.sq_fin, lib_add]
  rw [FloatLib.sqrt_fin]
  exact (distance_sq hL hu1 R I T p a b c y).nonneg hu1 (by positivity)

theorem roundedDistance_nan (L : FloatLib ℝ) (R I T p y : ℝ) (a b c : XF ℝ) (ha : Plain a) (hb : Plain b)
    (hc : Plain c) (h : a = .nan ∨ b = .nan ∨ c = .nan) :
    ClosestRounded.distance L (.fin R) (.fin I) (.fin T) (.fin p) a b c (.fin y) = .nan := by
  rcases ha with rfl | ⟨a, rfl⟩ <;> rcases hb with rfl | ⟨b, rfl⟩ <;> rcases hc with rfl | ⟨c, rfl⟩ <;>
    first | (simp [ClosestRounded.distance, FloatLib.sub, FloatLib.add, FloatLib.sq, FloatLib.mul, FloatLib.sqrtX,
      XF.round, XF.sub, XF.neg, XF.add, XF.mul, XF.sqrt]; done) | (simp at h)

/-! ## The answer -/

theorem closest_rounded_reads (L : FloatLib ℝ) (u : ℝ) (hL : Accurate L u) (hu1 : u < 1) (s : Shallot ℝ) (hs : Sound s)
    (hi : NoInfinities s) (m : Bool) (vr vi vt vp : PyVal ℝ) (R I T p a b : ℝ) (hq : Query vr vi vt vp R I T p)
    (h0 : s.params.dy.data.headD .nan = .fin a) (h1 : s.params.dy.data.getLastD .nan = .fin b) :
    ∃ (D : Nd ℝ) (s' : Shallot ℝ), Faded s s' ∧
      ClosestRounded.closestPoint L vr vi vt vp (.bool m) s = (Shallot.closestOf s.params D, s') ∧
      D.data.length = s.params.gridShape.1 * s.params.gridShape.2.1 * s.params.gridShape.2.2 ∧
      ∀ y x r, y < s.params.gridShape.1 → x < s.params.gridShape.2.1 → r < s.params.gridShape.2.2 →
        (∃ u v w : ℝ, Shown s m (flat s y x r) u v w ∧ D.data[flat s y x r]? =
          some (.fin (roundedApart L R I T p u v w (roundedRow L a b p s.params.gridShape.1 y)))) ∨
        ((∀ u v w : ℝ, ¬ Shown s m (flat s y x r) u v w) ∧ D.data[flat s y x r]? = some .nan) := by
  obtain ⟨d1, t1, e1, s1, f1, k1, g1, l1, v1⟩ := getCube_next hs hs (.refl s) .diskRadius _ rfl rfl m
  obtain ⟨d2, t2, e2, s2, f2, k2, g2, l2, v2⟩ := getCube_next hs s1 f1 .inclination _ rfl
    (k1 _ (by decide)) m
  obtain ⟨d3, t3, e3, s3, f3, k3, g3, l3, v3⟩ := getCube_next hs s2 f2 .tilt _ rfl
    ((k2 _ (by decide)).trans (k1 _ (by decide))) m
  have hpar : t3.params = s.params := by rw [f3.rest]
  have hne : s.params.dy.data ≠ [] := by
    intro h; rw [h] at h0; cases h0
  have hlen : s.params.dy.data.length = s.params.gridShape.1 := by rw [hs.shaped.grid]
  have n1 : number vr (.bool false) (.int 0) = .ok vr := by
    refine (C01_number_ok_iff false false vr vr (.int 0) (.float .pinf)).2 ⟨rfl, _, _, _, hq.radius,
      int_isNumber 0, Or.inr ⟨rfl, .float _⟩, ?_, ?_⟩
    · rw [less_iff]; simp [XF.lt]
    · have := hq.positive
      simp only [Violates, Bool.false_eq_true, if_false, less_iff]
      simpa [XF.lt] using this
  have n2 : number vi (.bool false) (.int 0) (.int 90) = .ok vi := by
    refine (C01_number_ok_iff false false vi vi (.int 0) (.int 90)).2 ⟨rfl, _, _, _, hq.inclination,
      int_isNumber 0, int_isNumber 90, ?_, ?_⟩
    · rw [less_iff]; simp [XF.lt]
    · have := hq.inclined
      simp only [Violates, Bool.false_eq_true, if_false, less_iff]
      simpa [XF.lt] using this
  have n3 : number vt (.bool false) (.int (-180)) (.int 180) = .ok vt := by
    refine (C01_number_ok_iff false false vt vt (.int (-180)) (.int 180)).2 ⟨rfl, _, _, _, hq.tilt,
      int_isNumber (-180), int_isNumber 180, ?_, ?_⟩
    · rw [less_iff]; simp [XF.lt]
    · have := hq.tilted
      simp only [Violates, Bool.false_eq_true, if_false, less_iff]
      simpa [XF.lt] using this
  have n4 : number vp = .ok vp := (number_default _ _).2 ⟨rfl, _, hq.impact⟩
  refine ⟨ClosestRounded.distances L vr.num vi.num vt.num vp.num s.params.dy.data s.params.gridShape.1
    s.params.gridShape.2.1 s.params.gridShape.2.2 d1 d2 d3, t3, f3, ?_, cubeOf_length _ _ _ _, ?_⟩
  · unfold ClosestRounded.closestPoint
    have hb : boolean (K := ℝ) (.bool m) = .ok m := rfl
    rw [n1, Meth.lift_ok_bind, n2, Meth.lift_ok_bind, n3, Meth.lift_ok_bind, n4, Meth.lift_ok_bind, hb,
      Meth.lift_ok_bind, bind_ok _ _ _ _ _ e1, bind_ok _ _ _ _ _ e2, bind_ok _ _ _ _ _ e3, Meth.get_bind]
    simp only [hpar]
    rfl
  · intro y x r hy hx hr
    have hlt : flat s y x r < s.params.gridShape.1 * s.params.gridShape.2.1 * s.params.gridShape.2.2 :=
      flat_lt hy hx hr
    obtain ⟨w1, q1, o1⟩ := v1 _ hlt
    obtain ⟨w2, q2, o2⟩ := v2 _ hlt
    obtain ⟨w3, q3, o3⟩ := v3 _ hlt
    have hat : ∀ (d : Nd ℝ) (w : XF ℝ), d.shape = [s.params.gridShape.1, s.params.gridShape.2.1,
        s.params.gridShape.2.2] → d.data[flat s y x r]? = some w → d.at3 y x r = w := by
      intro d w hd hw
      rw [at3_get hd]
      exact getD_of_get _ _ _ hw
    have n5 : vr.num = .fin R := isNumber_num hq.radius
    have n6 : vi.num = .fin I := isNumber_num hq.inclination
    have n7 : vt.num = .fin T := isNumber_num hq.tilt
    have n8 : vp.num = .fin p := isNumber_num hq.impact
    have hD : (ClosestRounded.distances L vr.num vi.num vt.num vp.num s.params.dy.data s.params.gridShape.1
      s.params.gridShape.2.1 s.params.gridShape.2.2 d1 d2 d3).data[flat s y x r]? = some (ClosestRounded.distance L
        (.fin R) (.fin I) (.fin T) (.fin p) w1 w2 w3 (.fin (roundedRow L a b p s.params.gridShape.1 y))) := by
      unfold ClosestRounded.distances flat
      rw [cubeOf_get _ _ _ _ hy hx hr, hat _ _ g1 q1, hat _ _ g2 q2, hat _ _ g3 q3,
        n5, n6, n7, n8, roundedRow_fin L _ a b p y h0 h1 hne, hlen]
    rw [hD]
    have p1 := seen_plain (hi _ (Or.inl rfl)) o1
    have p2 := seen_plain (hi _ (Or.inr (Or.inl rfl))) o2
    have p3 := seen_plain (hi _ (Or.inr (Or.inr rfl))) o3
    by_cases hn : w1 = .nan ∨ w2 = .nan ∨ w3 = .nan
    · right
      rw [roundedDistance_nan L R I T p _ w1 w2 w3 p1 p2 p3 hn]
      refine ⟨fun u v w hsh => ?_, rfl⟩
      rcases hn with rfl | rfl | rfl
      · cases seen_unique o1 hsh.radius
      · cases seen_unique o2 hsh.inclination
      · cases seen_unique o3 hsh.tilt
    · left
      push Not at hn
      obtain ⟨u', rfl⟩ := p1.resolve_left hn.1
      obtain ⟨v, rfl⟩ := p2.resolve_left hn.2.1
      obtain ⟨w, rfl⟩ := p3.resolve_left hn.2.2
      exact ⟨u', v, w, ⟨o1, o2, o3⟩, by rw [roundedDistance_fin hL hu1]⟩

/-- What `closestOf` answers for distances that are numbers at the grid points that have numbers. -/
theorem closestOf_answer (s : Shallot ℝ) (hs : Sound s) (m : Bool) (D : Nd ℝ) (F : ℝ → ℝ → ℝ → ℕ → ℝ)
    (hl : D.data.length = s.params.gridShape.1 * s.params.gridShape.2.1 * s.params.gridShape.2.2)
    (hD : ∀ y x r, y < s.params.gridShape.1 → x < s.params.gridShape.2.1 → r < s.params.gridShape.2.2 →
        (∃ u v w : ℝ, Shown s m (flat s y x r) u v w ∧ D.data[flat s y x r]? = some (.fin (F u v w y))) ∨
        ((∀ u v w : ℝ, ¬ Shown s m (flat s y x r) u v w) ∧ D.data[flat s y x r]? = some .nan)) :
    ((∀ y x r u v w, y < s.params.gridShape.1 → x < s.params.gridShape.2.1 → r < s.params.gridShape.2.2 →
        ¬ Shown s m (flat s y x r) u v w) → Shallot.closestOf s.params D = .error .valueError) ∧
    ((∃ y x r u v w, y < s.params.gridShape.1 ∧ x < s.params.gridShape.2.1 ∧ r < s.params.gridShape.2.2 ∧
        Shown s m (flat s y x r) u v w) →
      ∃ (c : Shallot.Closest ℝ) (y x r : ℕ) (u v w : ℝ), Shallot.closestOf s.params D = .ok c ∧
        c.indices = (y, x, r) ∧
        y < s.params.gridShape.1 ∧ x < s.params.gridShape.2.1 ∧ r < s.params.gridShape.2.2 ∧
        s.params.dy.data[y]? = some c.coordinates.1 ∧ s.params.dx.data[x]? = some c.coordinates.2.1 ∧
        s.params.rfArray.data[r]? = some c.coordinates.2.2 ∧
        Shown s m (flat s y x r) u v w ∧ c.distance = .fin (F u v w y) ∧
        ∀ y' x' r' u' v' w', y' < s.params.gridShape.1 → x' < s.params.gridShape.2.1 →
          r' < s.params.gridShape.2.2 → Shown s m (flat s y' x' r') u' v' w' → F u v w y ≤ F u' v' w' y') := by
  have hval : ∀ i < s.params.gridShape.1 * s.params.gridShape.2.1 * s.params.gridShape.2.2,
      ∃ y x r, (y, x, r) = unravel s.params.gridShape.2.1 s.params.gridShape.2.2 i ∧
        y < s.params.gridShape.1 ∧ x < s.params.gridShape.2.1 ∧ r < s.params.gridShape.2.2 ∧
        flat s y x r = i := by
    intro i hi
    have hun := unravel_spec hi
    exact ⟨_, _, _, rfl, hun.1, hun.2.1, hun.2.2.1, hun.2.2.2⟩
  constructor
  · intro hno
    unfold Shallot.closestOf
    rw [(nanargmin_error D.data .valueError).2 ⟨rfl, ?_⟩, error_bind]
    intro v hv
    obtain ⟨i, hi⟩ := List.mem_iff_getElem?.1 hv
    have hilt : i < D.data.length := (List.getElem?_eq_some_iff.1 hi).1
    obtain ⟨y, x, r, -, hy, hx, hr, rfl⟩ := hval i (by rw [← hl]; exact hilt)
    rcases hD y x r hy hx hr with ⟨u, v', w, hsh, -⟩ | ⟨-, h⟩
    · exact absurd hsh (hno y x r u v' w hy hx hr)
    · rw [hi] at h
      exact Option.some.inj h
  · rintro ⟨y0, x0, r0, u0, v0, w0, hy0, hx0, hr0, hsh0⟩
    have hplain : ∀ v ∈ D.data, Plain v := by
      intro v hv
      obtain ⟨i, hi⟩ := List.mem_iff_getElem?.1 hv
      have hilt : i < D.data.length := (List.getElem?_eq_some_iff.1 hi).1
      obtain ⟨y, x, r, -, hy, hx, hr, rfl⟩ := hval i (by rw [← hl]; exact hilt)
      rcases hD y x r hy hx hr with ⟨u, v', w, hsh, h⟩ | ⟨-, h⟩ <;> rw [hi] at h
      · exact Or.inr ⟨_, Option.some.inj h⟩
      · exact Or.inl (Option.some.inj h)
    have hD0 : ∀ y x r u v w, y < s.params.gridShape.1 → x < s.params.gridShape.2.1 →
        r < s.params.gridShape.2.2 → Shown s m (flat s y x r) u v w → D.data[flat s y x r]? =
          some (.fin (F u v w y)) := by
      intro y x r u v w hy hx hr hsh
      rcases hD y x r hy hx hr with ⟨u', v', w', hsh', h⟩ | ⟨h, -⟩
      · cases seen_unique hsh.radius hsh'.radius
        cases seen_unique hsh.inclination hsh'.inclination
        cases seen_unique hsh.tilt hsh'.tilt
        exact h
      · exact absurd hsh (h u v w)
    obtain ⟨i, hi'⟩ : ∃ i, nanargmin D.data = .ok i := by
      cases h : nanargmin D.data with
      | ok i => exact ⟨i, rfl⟩
      | error e =>
        have := ((nanargmin_error _ _).1 h).2 _ (List.mem_of_getElem? (hD0 _ _ _ _ _ _ hy0 hx0 hr0 hsh0))
        cases this
    obtain ⟨hilt, q, hq1, hq2⟩ := nanargmin_plain D.data hplain i hi'
    obtain ⟨y, x, r, hun, hy, hx, hr, hfl⟩ := hval i (by rw [← hl]; exact hilt)
    have hDi : D.data[i]? = some (.fin q) := by
      rw [List.getElem?_eq_getElem hilt]
      have : sampleAt D.data i = D.data[i] := by
        unfold sampleAt
        rw [List.getD_eq_getElem?_getD, List.getElem?_eq_getElem hilt]; rfl
      rw [← this, hq1]
    rcases hD y x r hy hx hr with ⟨u, v, w, hsh, h⟩ | ⟨-, h⟩
    swap
    · rw [hfl, hDi] at h; cases h
    rw [hfl, hDi] at h
    obtain rfl : q = _ := XF.fin.inj (Option.some.inj h)
    have hgrid := hs.shaped.grid
    have hcd : ∀ (l : List (XF ℝ)) (k : ℕ), k < l.length → l[k]? = some (l.getD k .nan) := by
      intro l k hk
      rw [List.getD_eq_getElem?_getD, List.getElem?_eq_getElem hk]; rfl
    refine ⟨⟨(s.params.dy.data.getD y .nan, s.params.dx.data.getD x .nan, s.params.rfArray.data.getD r .nan),
      (y, x, r), .fin (F u v w y)⟩, y, x, r, u, v, w, ?_, rfl, hy, hx,
      hr, hcd _ _ ?_, hcd _ _ ?_, hcd _ _ ?_, hsh, rfl, ?_⟩
    · unfold Shallot.closestOf
      rw [hi', ok_bind, ← hun, hq2]
      rfl
    · rw [hgrid] at hy; exact hy
    · rw [hgrid] at hx; exact hx
    · rw [hs.shaped.rfArray]; rw [hgrid] at hr; exact hr
    · intro y' x' r' u' v' w' hy' hx' hr' hsh'
      have hm := (nanmin_spec D.data).2 _ hq2
      have := hm.2.2 _ (List.mem_of_getElem? (hD0 _ _ _ _ _ _ hy' hx' hr' hsh')) (by simp)
      rw [lessEq_iff] at this
      simpa [XF.le] using this

/-- **C120** In floating point `determine_closest_grid_point` answers with a grid point that has numbers, whose
distance from the query is the smallest up to eight roundings and the rounding of the rows, and the distance that
it returns is the distance of that grid point up to four roundings and the rounding of its row.  Rounding must not
move a row to the other side of zero. -/
theorem C120_closest (L : FloatLib ℝ) (ε : ℝ) (hL : Accurate L ε) (hε : 100 * ε ≤ 1) (s : Shallot ℝ) (hs : Sound s)
    (hi : NoInfinities s) (m : Bool) (vr vi vt vp : PyVal ℝ) (R I T p a b : ℝ) (hq : Query vr vi vt vp R I T p)
    (h0 : s.params.dy.data.headD .nan = .fin a) (h1 : s.params.dy.data.getLastD .nan = .fin b)
    (hside : SameSides L a b s.params.gridShape.1) :
    ∃ (res : Except Err (Shallot.Closest ℝ)) (s' : Shallot ℝ),
      ClosestRounded.closestPoint L vr vi vt vp (.bool m) s = (res, s') ∧ Faded s s' ∧
      ((∀ y x r u v w, y < s.params.gridShape.1 → x < s.params.gridShape.2.1 → r < s.params.gridShape.2.2 →
          ¬ Shown s m (flat s y x r) u v w) → res = .error .valueError) ∧
      ((∃ y x r u v w, y < s.params.gridShape.1 ∧ x < s.params.gridShape.2.1 ∧ r < s.params.gridShape.2.2 ∧
          Shown s m (flat s y x r) u v w) →
        ∃ (c : Shallot.Closest ℝ) (y x r : ℕ) (u v w d : ℝ), res = .ok c ∧ c.indices = (y, x, r) ∧
          y < s.params.gridShape.1 ∧ x < s.params.gridShape.2.1 ∧ r < s.params.gridShape.2.2 ∧
          s.params.dy.data[y]? = some c.coordinates.1 ∧ s.params.dx.data[x]? = some c.coordinates.2.1 ∧
          s.params.rfArray.data[r]? = some c.coordinates.2.2 ∧
          Shown s m (flat s y x r) u v w ∧ c.distance = .fin d ∧
          (1 - ε) ^ 4 * (apart R I T p u v w (rowAt a b p s.params.gridShape.1 y) - rowError ε a b) ≤ d ∧
          (1 - ε) ^ 4 * d ≤ apart R I T p u v w (rowAt a b p s.params.gridShape.1 y) + rowError ε a b ∧
          ∀ y' x' r' u' v' w', y' < s.params.gridShape.1 → x' < s.params.gridShape.2.1 →
            r' < s.params.gridShape.2.2 → Shown s m (flat s y' x' r') u' v' w' →
            (1 - ε) ^ 8 * (apart R I T p u v w (rowAt a b p s.params.gridShape.1 y) - rowError ε a b) ≤
              apart R I T p u' v' w' (rowAt a b p s.params.gridShape.1 y') + rowError ε a b) := by
  have hε0 := hL.nonneg
  have hε1 : ε < 1 := by linarith
  obtain ⟨D, s', hf, hc, hl, hD⟩ := closest_rounded_reads L ε hL hε1 s hs hi m vr vi vt vp R I T p a b hq h0 h1
  obtain ⟨a1, a2⟩ := closestOf_answer s hs m D
    (fun u v w y => roundedApart L R I T p u v w (roundedRow L a b p s.params.gridShape.1 y)) hl hD
  refine ⟨_, s', hc, hf, a1, fun hex => ?_⟩
  obtain ⟨c, y, x, r, u, v, w, e1, e2, e3, e4, e5, e6, e7, e8, e9, e10, e11⟩ := a2 hex
  have p4 : 0 ≤ (1 - ε) ^ 4 := pow_nonneg (by linarith) _
  have low : ∀ (y : ℕ) (u v w : ℝ), y < s.params.gridShape.1 →
      (1 - ε) ^ 4 * (apart R I T p u v w (rowAt a b p s.params.gridShape.1 y) - rowError ε a b) ≤
        roundedApart L R I T p u v w (roundedRow L a b p s.params.gridShape.1 y) := by
    intro y u v w hy
    have h2 := (roundedApart_near hL hε1 R I T p u v w (roundedRow L a b p s.params.gridShape.1 y)).1
    have h3 := apart_near R I T p u v w (rowAt a b p s.params.gridShape.1 y) (roundedRow L a b p s.params.gridShape.1 y)
    have h4 := roundedRow_near hL hε a b p s.params.gridShape.1 y hy hside
    rw [abs_sub_comm] at h4
    have h5 : apart R I T p u v w (rowAt a b p s.params.gridShape.1 y) - rowError ε a b ≤
      apart R I T p u v w (roundedRow L a b p s.params.gridShape.1 y) := by linarith
    have := mul_le_mul_of_nonneg_left h5 p4
    linarith
  have upp : ∀ (y : ℕ) (u v w : ℝ), y < s.params.gridShape.1 →
      (1 - ε) ^ 4 * roundedApart L R I T p u v w (roundedRow L a b p s.params.gridShape.1 y) ≤
        apart R I T p u v w (rowAt a b p s.params.gridShape.1 y) + rowError ε a b := by
    intro y u v w hy
    have h2 := (roundedApart_near hL hε1 R I T p u v w (roundedRow L a b p s.params.gridShape.1 y)).2
    have h3 := apart_near R I T p u v w (roundedRow L a b p s.params.gridShape.1 y) (rowAt a b p s.params.gridShape.1 y)
    have h4 := roundedRow_near hL hε a b p s.params.gridShape.1 y hy hside
    linarith
  refine ⟨c, y, x, r, u, v, w, _, e1, e2, e3, e4, e5, e6, e7, e8, e9, e10, low y u v w e3, upp y u v w e3, ?_⟩
  intro y' x' r' u' v' w' hy' hx' hr' hsh'
  have h2 := mul_le_mul_of_nonneg_left ((low y u v w e3).trans (e11 y' x' r' u' v' w' hy' hx' hr' hsh')) p4
  have h3 := upp y' u' v' w' hy'
  have e : (1 - ε) ^ 8 * (apart R I T p u v w (rowAt a b p s.params.gridShape.1 y) - rowError ε a b) =
    (1 - ε) ^ 4 * ((1 - ε) ^ 4 * (apart R I T p u v w (rowAt a b p s.params.gridShape.1 y) - rowError ε a b)) := by ring
  rw [e]
  exact h2.trans h3

theorem apart_self {R I T p a b c y : ℝ} : apart R I T p a b c y = 0 ↔ a = R ∧ b = I ∧ c = T ∧ y = p := by
  unfold apart
  rw [sqrt_eq_zero (by positivity)]
  constructor
  · intro h
    have s1 := sq_nonneg (a - R)
    have s2 := sq_nonneg (b - I)
    have s3 := sq_nonneg (c - T)
    have s4 := sq_nonneg (y - p)
    have z : ∀ d : ℝ, d ^ 2 ≤ 0 → d = 0 := fun d hd => by
      have := sq_nonneg d
      exact pow_eq_zero_iff (two_ne_zero) |>.1 (le_antisymm hd this)
    have z1 := z _ (by linarith : (a - R) ^ 2 ≤ 0)
    have z2 := z _ (by linarith : (b - I) ^ 2 ≤ 0)
    have z3 := z _ (by linarith : (c - T) ^ 2 ≤ 0)
    have z4 := z _ (by linarith : (y - p) ^ 2 ≤ 0)
    exact ⟨by linarith, by linarith, by linarith, by linarith⟩
  · rintro ⟨rfl, rfl, rfl, rfl⟩
    ring

theorem roundedApart_nonneg {L : FloatLib ℝ} {u : ℝ} (hL : Accurate L u) (hu1 : u < 1) (R I T p a b c y : ℝ) :
    0 ≤ roundedApart L R I T p a b c y :=
  (roundedApart_near hL hu1 R I T p a b c y).nonneg hu1 (apart_nonneg _ _ _ _ _ _ _ _)

/-- A computed distance is 0 exactly if nothing differs. -/
theorem roundedApart_self {L : FloatLib ℝ} {u : ℝ} (hL : Accurate L u) (hu1 : u < 1) {R I T p a b c y : ℝ} :
    roundedApart L R I T p a b c y = 0 ↔ a = R ∧ b = I ∧ c = T ∧ y = p := by
  rw [← apart_self]
  have h := roundedApart_near hL hu1 R I T p a b c y
  have h0 := roundedApart_nonneg hL hu1 R I T p a b c y
  have h1 := apart_nonneg R I T p a b c y
  have hp : 0 < (1 - u) ^ 4 := pow_pos (by linarith) _
  constructor
  · intro e
    have h2 := h.1
    rw [e] at h2
    by_contra hne
    have := mul_pos (lt_of_le_of_ne h1 (Ne.symm hne)) hp
    linarith
  · intro e
    have h2 := h.2
    rw [e] at h2
    by_contra hne
    have := mul_pos (lt_of_le_of_ne h0 (Ne.symm hne)) hp
    linarith

/-- **C120** In floating point too, a query for radius, inclination and tilt of a grid point and the `dy` of the
first row is answered with distance exactly 0 if the grid point is in the first row, and an answer with distance 0
has exactly the radius, inclination and tilt of the query. -/
theorem C120_first_row (L : FloatLib ℝ) (ε : ℝ) (hL : Accurate L ε) (hε : ε < 1) (s : Shallot ℝ) (hs : Sound s)
    (hi : NoInfinities s) (m : Bool) (vr vi vt vp : PyVal ℝ) (R I T a b : ℝ) (hq : Query vr vi vt vp R I T a)
    (h0 : s.params.dy.data.headD .nan = .fin a) (h1 : s.params.dy.data.getLastD .nan = .fin b) (ha : L.rnd a = a)
    (x r : ℕ) (hx : x < s.params.gridShape.2.1) (hr : r < s.params.gridShape.2.2)
    (hsh : Shown s m (flat s 0 x r) R I T) :
    ∃ (c : Shallot.Closest ℝ) (s' : Shallot ℝ) (y' x' r' : ℕ),
      ClosestRounded.closestPoint L vr vi vt vp (.bool m) s = (.ok c, s') ∧ c.distance = .fin 0 ∧
      c.indices = (y', x', r') ∧ Shown s m (flat s y' x' r') R I T := by
  have hy : 0 < s.params.gridShape.1 := by
    rw [hs.shaped.grid]
    refine List.length_pos_iff.2 fun h => ?_
    rw [h] at h0
    cases h0
  obtain ⟨D, s', -, hc, hl, hD⟩ := closest_rounded_reads L ε hL hε s hs hi m vr vi vt vp R I T a a b hq h0 h1
  obtain ⟨-, a2⟩ := closestOf_answer s hs m D
    (fun u v w y => roundedApart L R I T a u v w (roundedRow L a b a s.params.gridShape.1 y)) hl hD
  obtain ⟨c, y', x', r', u, v, w, e1, e2, -, -, -, -, -, -, e3, e4, e5⟩ := a2 ⟨0, x, r, R, I, T, hy, hx, hr, hsh⟩
  have hrow : roundedRow L a b a s.params.gridShape.1 0 = a := by
    have hp : roundedPlace L a b s.params.gridShape.1 0 = a := by
      unfold roundedPlace
      rw [Nat.cast_zero, zero_div, rounds_zero hL.rnd, zero_mul, rounds_zero hL.rnd, zero_add, ha]
    unfold roundedRow
    rw [hp, if_neg (by intro h; linarith [h.1, h.2]), if_neg (by intro h; linarith [h.1, h.2])]
  have hz : roundedApart L R I T a u v w (roundedRow L a b a s.params.gridShape.1 y') = 0 := by
    refine le_antisymm ?_ (roundedApart_nonneg hL hε _ _ _ _ _ _ _ _)
    refine (e5 0 x r R I T hy hx hr hsh).trans (le_of_eq ?_)
    exact (roundedApart_self hL hε).2 ⟨rfl, rfl, rfl, hrow⟩
  obtain ⟨rfl, rfl, rfl, -⟩ := (roundedApart_self hL hε).1 hz
  rw [hz] at e4
  exact ⟨c, s', y', x', r', by rw [hc, e1], e4, e2, e3⟩

/-- **C120** On a grid whose rows lie on both sides of zero alike, rounding moves no row to the other side, as long
as there are not billions of rows. -/
theorem C120_symmetric (L : FloatLib ℝ) (u : ℝ) (hL : Accurate L u) (hu1 : 100 * u ≤ 1) (d : ℝ) (hd : 0 < d) (n : ℕ)
    (hn : 21 * u * n < 1) (h2 : L.rnd (1 / 2) = 1 / 2) (hd1 : L.rnd d = d) (hd2 : L.rnd (2 * d) = 2 * d) :
    SameSides L (-d) d n := by
  intro k hk
  have hn0 : (0 : ℝ) < n := by exact_mod_cast (by omega : 0 < n)
  have hu := hL.nonneg
  by_cases hkn : n = 2 * k
  · have hk0 : (k : ℝ) ≠ 0 := by
      have : k ≠ 0 := by omega
      exact_mod_cast this
    have e : (k : ℝ) / n = 1 / 2 := by
      rw [hkn]; push_cast; field_simp
    have e1 : roundedPlace L (-d) d n k = 0 := by
      unfold roundedPlace
      rw [e, h2, show d - -d = 2 * d by ring, hd2, show 1 / 2 * (2 * d) = d by ring, hd1,
        show d + -d = 0 by ring, rounds_zero hL.rnd]
    have e2 : placeAt (-d) d n k = 0 := by
      unfold placeAt
      rw [e]; ring
    rw [e1, e2]
    exact ⟨Iff.rfl, Iff.rfl⟩
  · have e : placeAt (-d) d n k = d * ((2 * k - n) / n) := by
      unfold placeAt
      field_simp
      ring
    have hint : (1 : ℝ) ≤ |2 * (k : ℝ) - n| := by
      have : (1 : ℤ) ≤ |2 * (k : ℤ) - n| := Int.one_le_abs (by omega)
      exact_mod_cast this
    have hfar : rowError u (-d) d < |placeAt (-d) d n k| := by
      rw [e, abs_mul, abs_div, abs_of_pos hd, abs_of_pos hn0]
      have e3 : rowError u (-d) d = d * (21 * u) := by
        unfold rowError
        rw [show d - -d = 2 * d by ring, abs_neg, abs_of_pos hd, abs_of_pos (by linarith : 0 < 2 * d)]
        ring
      rw [e3]
      refine mul_lt_mul_of_pos_left ?_ hd
      rw [lt_div_iff₀ hn0]
      linarith
    have h1 := abs_le.1 (roundedPlace_near hL hu1 (-d) d n k hk)
    rcases le_total 0 (placeAt (-d) d n k) with h3 | h3
    · rw [abs_of_nonneg h3] at hfar
      constructor <;> constructor <;> intro <;> linarith
    · rw [abs_of_nonpos h3] at hfar
      constructor <;> constructor <;> intro <;> linarith

/-- A library and a grid that meet the hypotheses of `C120_closest`, with a grid point that has numbers. -/
example : ∃ (s : Shallot ℝ) (a b c : ℝ), Sound s ∧ NoInfinities s ∧ Accurate .double (1 / 2 ^ 53) ∧
    SameSides .double (-1) 1 s.params.gridShape.1 ∧ Shown s true (flat s 2 2 1) a b c ∧
    Query (.float (.fin a)) (.float (.fin b)) (.float (.fin c)) (.int 1) a b c 1 ∧
    s.params.dy.data.headD .nan = .fin (-1) ∧ s.params.dy.data.getLastD .nan = .fin 1 := by
  obtain ⟨s, a, b, c, h1, h2, h3, h4, -, h5, h6, -⟩ := C47_false_witness
  refine ⟨s, a, b, c, h1, h2, double_accurate, ?_, h5, h6, ?_, ?_⟩
  · rw [h3]
    refine sameSides_of_far double_accurate (by norm_num) (-1) 1 3 ?_
    intro k hk
    unfold rowError placeAt
    match k, hk with
    | 0, _ => norm_num
    | 1, _ => norm_num
    | 2, _ => norm_num
  · rw [List.headD_eq_head?_getD, List.head?_eq_getElem?, h4.first]; rfl
  · rw [List.getLastD_eq_getLast?, List.getLast?_eq_getElem?, h4.length, h4.last (by norm_num)]; rfl

end Beyonce
