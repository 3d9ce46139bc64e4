import Verif.Props.GridReport
import Verif.Props.RingDraw
import Verif.Props.Points

/-!
# C91: a ring made from a grid point covers the star exactly during the eclipse

From `ShallotGrid` to `Ring`: whatever has been called on the grid, the disk that it reports for a grid
point, or as a solution, makes a ring; drawn at the reported centre, it covers exactly that part of the
path of the star that lies between the two end points of the eclipse.
-/

set_option linter.unusedSectionVars false

namespace Beyonce
open Spec Geometry Real

/-! ## Disks and the line of the eclipse -/

/-- The image of a disc of squared radius `q` under the map that draws the outer boundary. -/
theorem outerVertex_eq_iff (a i t x : ℝ) (c p : Pt) (ha : 0 < a) (hi : 0 < cos i) :
    outerVertex a i t c p = (x, 0) ↔
      p.1 = ((x - c.1) * cos t - c.2 * sin t) / a ∧
      p.2 = ((x - c.1) * sin t + c.2 * cos t) / (a * cos i) := by
  have e := sin_sq_add_cos_sq t
  have hb : 0 < a * cos i := mul_pos ha hi
  simp only [outerVertex, rotateRow, Prod.mk.injEq]
  constructor
  · rintro ⟨h1, h2⟩
    constructor
    · rw [eq_div_iff ha.ne']
      linear_combination cos t * h1 + sin t * h2 - a * p.1 * e
    · rw [eq_div_iff hb.ne']
      linear_combination sin t * h1 - cos t * h2 - a * p.2 * cos i * e
  · rintro ⟨h1, h2⟩
    rw [eq_div_iff ha.ne'] at h1
    rw [eq_div_iff hb.ne'] at h2
    constructor
    · linear_combination cos t * h1 + sin t * h2 + (x - c.1) * e
    · linear_combination sin t * h1 - cos t * h2 - c.2 * e

/-- The quadratic form of an ellipse that passes through both end points, on the line of the
eclipse. -/
theorem spans_form (dx dy a i t : ℝ) (ha : 0 < a) (hi : 0 < cos (deg2rad i))
    (h : Spans dx dy a i t) : ∃ A : ℝ, 0 < A ∧ ∀ x : ℝ,
      (((x - dx) * cos (deg2rad t) - dy * sin (deg2rad t)) / a) ^ 2 +
      (((x - dx) * sin (deg2rad t) + dy * cos (deg2rad t)) / (a * cos (deg2rad i))) ^ 2 =
        1 + A * (x ^ 2 - 1 / 4) := by
  have hb : 0 < a * cos (deg2rad i) := mul_pos ha hi
  have e := sin_sq_add_cos_sq (deg2rad t)
  have hr : ∀ z, rad z = deg2rad z := fun z => rfl
  obtain ⟨C, hC⟩ : ∃ C, C = cos (deg2rad t) := ⟨_, rfl⟩
  obtain ⟨S, hS⟩ : ∃ S, S = sin (deg2rad t) := ⟨_, rfl⟩
  obtain ⟨b, hb'⟩ : ∃ b, b = a * cos (deg2rad i) := ⟨_, rfl⟩
  have one : ∀ z : ℝ, z = 1 / 2 ∨ z = -1 / 2 →
      (((z - dx) * C - dy * S) / a) ^ 2 + (((z - dx) * S + dy * C) / b) ^ 2 = 1 := by
    intro z hz
    obtain ⟨φ, hφ⟩ := h z hz
    simp only [tilted, hr, Prod.mk.injEq] at hφ
    rw [← hC, ← hS, ← hb'] at hφ
    rw [← hC, ← hS] at e
    have h1 : ((z - dx) * C - dy * S) / a = cos φ := by
      rw [div_eq_iff ha.ne']
      linear_combination C * hφ.1 + S * hφ.2 + a * cos φ * e
    have h2 : ((z - dx) * S + dy * C) / b = - sin φ := by
      rw [div_eq_iff (by rw [hb']; exact hb.ne')]
      linear_combination S * hφ.1 - C * hφ.2 - b * sin φ * e
    rw [h1, h2]
    nlinarith [sin_sq_add_cos_sq φ]
  rw [← hC, ← hS, ← hb']
  rw [← hC, ← hS] at e
  have ha' : a ≠ 0 := ha.ne'
  have hbb : b ≠ 0 := by rw [hb']; exact hb.ne'
  refine ⟨(C / a) ^ 2 + (S / b) ^ 2, ?_, ?_⟩
  · by_cases hc0 : C = 0
    · have hs0 : S ≠ 0 := by
        rintro h0; rw [hc0, h0] at e; norm_num at e
      have := sq_nonneg (C / a)
      have : 0 < (S / b) ^ 2 := by positivity
      linarith [sq_nonneg (C / a)]
    · have : 0 < (C / a) ^ 2 := by positivity
      linarith [sq_nonneg (S / b)]
  · intro x
    have h1 := one (1 / 2) (Or.inl rfl)
    have h2 := one (-1 / 2) (Or.inr rfl)
    have ex : ∀ z : ℝ, (((z - dx) * C - dy * S) / a) ^ 2 + (((z - dx) * S + dy * C) / b) ^ 2 =
        ((C / a) ^ 2 + (S / b) ^ 2) * z ^ 2 +
        2 * z * ((C / a) * (-(dx * C + dy * S) / a) + (S / b) * ((dy * C - dx * S) / b)) +
        ((-(dx * C + dy * S) / a) ^ 2 + ((dy * C - dx * S) / b) ^ 2) := by
      intro z
      ring
    rw [ex] at h1 h2
    rw [ex]
    linear_combination (1 / 2 + x) * h1 + (1 / 2 - x) * h2

/-- A point of the line of the eclipse lies inside the ellipse exactly between the end points, and on it
exactly at the end points. -/
theorem spans_line (dx dy a i t : ℝ) (ha : 0 < a) (hi : 0 < cos (deg2rad i)) (h : Spans dx dy a i t)
    (x : ℝ) :
    ((∃ p : Pt, p.1 ^ 2 + p.2 ^ 2 < 1 ∧
        outerVertex a (deg2rad i) (deg2rad t) (dx, dy) p = (x, 0)) ↔ |x| < 1 / 2) ∧
    ((∃ p : Pt, p.1 ^ 2 + p.2 ^ 2 = 1 ∧
        outerVertex a (deg2rad i) (deg2rad t) (dx, dy) p = (x, 0)) ↔ |x| = 1 / 2) := by
  obtain ⟨A, hA, hq⟩ := spans_form dx dy a i t ha hi h
  have hx : |x| ^ 2 = x ^ 2 := sq_abs x
  have h0 := abs_nonneg x
  constructor
  · constructor
    · rintro ⟨p, hp, he⟩
      obtain ⟨h1, h2⟩ := (outerVertex_eq_iff a _ _ x (dx, dy) p ha hi).1 he
      rw [h1, h2, hq x] at hp
      have : x ^ 2 < 1 / 4 := by nlinarith
      nlinarith
    · intro hlt
      refine ⟨_, ?_, (outerVertex_eq_iff a _ _ x (dx, dy) (_, _) ha hi).2 ⟨rfl, rfl⟩⟩
      rw [hq x]
      have : x ^ 2 < 1 / 4 := by nlinarith
      nlinarith
  · constructor
    · rintro ⟨p, hp, he⟩
      obtain ⟨h1, h2⟩ := (outerVertex_eq_iff a _ _ x (dx, dy) p ha hi).1 he
      rw [h1, h2, hq x] at hp
      have : A * (x ^ 2 - 1 / 4) = 0 := by linarith
      rcases mul_eq_zero.1 this with h | h
      · exact absurd h hA.ne'
      · nlinarith
    · intro heq
      refine ⟨_, ?_, (outerVertex_eq_iff a _ _ x (dx, dy) (_, _) ha hi).2 ⟨rfl, rfl⟩⟩
      rw [hq x, ← hx, heq]
      norm_num

theorem cos_deg_pos {i : ℝ} (h0 : 0 ≤ i) (h1 : i < 90) : 0 < cos (deg2rad i) := by
  apply cos_pos_of_mem_Ioo
  unfold deg2rad
  constructor
  · nlinarith [pi_pos]
  · nlinarith [pi_pos]

/-! ## What any history leaves of the disks -/

/-- The three cubes of a disk hold what they held in `t`, or NaN. -/
def diskScheme {K : Type} (t : Shallot K) : Scheme K where
  cube c o := c = .diskRadius ∨ c = .inclination ∨ c = .tilt → ∀ p q, o = some p → t.prop c = some q →
    p.data.shape = q.data.shape ∧
    ∀ (i : ℕ) (x : XF K), p.data.data[i]? = some x → x = XF.nan ∨ q.data.data[i]? = some x
  grad _ := True

section
variable {K : Type} [Field K] [LinearOrder K] [IsStrictOrderedRing K]

theorem diskScheme_faded {t : Shallot K} {c : Cube} {p p' : GProp K} {M : ℕ → Prop}
    (h : (diskScheme t).cube c (some p)) (hf : FadedProp M p p') : (diskScheme t).cube c (some p') := by
  intro hc a q ha hq
  cases ha
  obtain ⟨h1, h2⟩ := h hc p q rfl hq
  refine ⟨hf.shape.trans h1, fun i x hx => ?_⟩
  rcases hf.values i with h | ⟨h, -⟩
  · exact h2 i x (h ▸ hx)
  · rw [h] at hx
    exact Or.inl (Option.some.inj hx).symm

theorem diskScheme_closed [RealFns K] (t : Shallot K) : (diskScheme t).Closed where
  getData v c p h := diskScheme_faded h (getData_faded v p)
  nanWhere m c p h := diskScheme_faded h (nanWhere_faded m (fun _ => True) p fun _ _ => trivial)
  eraseAt i c p h := by
    intro hc a q ha hq
    cases ha
    obtain ⟨h1, h2⟩ := h hc p q rfl hq
    refine ⟨h1, fun j x hx => ?_⟩
    simp only [Shallot.eraseAt, Meth.modify_apply, List.getElem?_set] at hx
    split_ifs at hx
    · exact Or.inl (Option.some.inj hx).symm
    · exact h2 j x hx
  setMask v c p h := by
    intro hc a q ha hq
    cases ha
    rcases setMask_cases v p with ⟨m, -, -, -, e⟩ | ⟨⟨e', e⟩, -⟩
    · rw [e]; exact h hc p q rfl hq
    · rw [e]; exact h hc p q rfl hq
  noFit h := by rcases h with h | h | h <;> cases h
  newFit _ _ _ _ h := by rcases h with h | h | h <;> cases h
  newMap _ _ _ _ h := by rcases h with h | h | h <;> cases h
  gradGet _ _ _ := trivial
  gradMask _ _ _ _ _ _ := trivial
  gradNew _ _ _ _ _ := trivial

theorem diskScheme_start (t : Shallot K) : (diskScheme t).Holds t :=
  ⟨fun c _ p q hp hq => by
    rw [hp] at hq
    cases hq
    exact ⟨rfl, fun i x hx => Or.inr hx⟩, fun _ _ _ _ => trivial, trivial⟩

/-! ## What a successful lookup gives -/

theorem onProp_stored {c : Cube} {m : Meth (GProp K) (Nd K)}
    (hm : ∀ p d p', m p = (.ok d, p') → p'.data = d) {s s' : Shallot K} {d : Nd K}
    (h : Shallot.onProp c m s = (.ok d, s')) : ∃ p, s'.prop c = some p ∧ p.data = d := by
  unfold Shallot.onProp at h
  cases hp : s.prop c with
  | none => rw [hp] at h; cases h
  | some p =>
    rw [hp] at h
    obtain ⟨r, p', hr⟩ : ∃ r p', m p = (r, p') := ⟨_, _, rfl⟩
    simp only [hr, Prod.mk.injEq] at h
    obtain ⟨rfl, rfl⟩ := h
    refine ⟨p', ?_, hm p d p' hr⟩
    rw [setProp_prop, if_pos rfl]

theorem getData_stored (v : PyVal K) (p : GProp K) (d : Nd K) (p' : GProp K)
    (h : GProp.getData v p = (.ok d, p')) : p'.data = d := by
  unfold GProp.getData at h
  cases hb : boolean v with
  | error e => rw [hb] at h; cases h
  | ok b =>
    rw [hb, Meth.lift_ok_bind, Meth.get_bind] at h
    cases b with
    | false => cases h; rfl
    | true =>
      cases hm : p.mask with
      | none => simp only [hm] at h; cases h; rfl
      | some m =>
        simp only [hm] at h
        split_ifs at h
        · cases h; rfl
        · cases h

theorem nanWhere_stored (m : Mask) (p : GProp K) (d : Nd K) (p' : GProp K)
    (h : Shallot.nanWhere m p = (.ok d, p')) : p'.data = d := by
  unfold Shallot.nanWhere at h
  rw [Meth.get_bind] at h
  split_ifs at h
  · cases h; rfl
  · cases h

theorem getCube_stored {c : Cube} {v w : PyVal K} {s s' : Shallot K} {d : Nd K}
    (h : Shallot.getCube c v w s = (.ok d, s')) : ∃ p, s'.prop c = some p ∧ p.data = d := by
  unfold Shallot.getCube at h
  rcases bind_cases (Shallot.onProp c (GProp.getData w)) (fun d => do
      let masked ← Meth.lift (boolean v)
      if masked then do
        let self ← Meth.get
        let m ← Meth.lift self.combinedMask
        Shallot.onProp c (Shallot.nanWhere m)
      else pure d) s with ⟨d1, s1, h1, h2⟩ | ⟨e, s1, h1, h2⟩
  · rw [h2] at h
    cases hb : boolean v with
    | error e => rw [hb] at h; cases h
    | ok b =>
      rw [hb, Meth.lift_ok_bind] at h
      cases b with
      | false =>
        cases h
        exact onProp_stored (getData_stored w) h1
      | true =>
        simp only [if_true, Meth.get_bind] at h
        cases hm : s1.combinedMask with
        | error e => rw [hm] at h; cases h
        | ok m =>
          rw [hm, Meth.lift_ok_bind] at h
          exact onProp_stored (nanWhere_stored m) h
  · rw [h2] at h; cases h

/-- The value is that of `t` at this place, or NaN. -/
def Remains (t : Shallot K) (c : Cube) (y x r : ℕ) (v : XF K) : Prop :=
  v = .nan ∨ ∃ q, t.prop c = some q ∧ v = q.data.at3 y x r

theorem get3_cases {d : Nd K} {y x r : ℤ} {v : XF K} (h : d.get3 y x r = .ok v) :
    ∃ a b c, d.shape = [a, b, c] ∧ 0 ≤ y ∧ y < a ∧ 0 ≤ x ∧ x < b ∧ 0 ≤ r ∧ r < c ∧
      v = d.at3 y.toNat x.toNat r.toNat := by
  unfold Nd.get3 at h
  split at h
  · rename_i a b c hs
    split_ifs at h with hc
    cases h
    exact ⟨a, b, c, hs, hc.1, hc.2.1, hc.2.2.1, hc.2.2.2.1, hc.2.2.2.2.1, hc.2.2.2.2.2, rfl⟩
  · cases h

theorem at3_remains {t : Shallot K} {c : Cube} (hc : c = .diskRadius ∨ c = .inclination ∨ c = .tilt)
    {p : GProp K} (hp : (diskScheme t).cube c (some p)) {y x r : ℕ} :
    Remains t c y x r (p.data.at3 y x r) := by
  obtain ⟨q, hq⟩ : ∃ q, t.prop c = some q := by
    rcases hc with rfl | rfl | rfl <;> exact ⟨_, rfl⟩
  obtain ⟨h1, h2⟩ := hp hc p q rfl hq
  unfold Nd.at3
  rw [h1]
  split
  · rename_i b c' hs
    rw [List.getD_eq_getElem?_getD]
    cases hx : p.data.data[(y * b + x) * c' + r]? with
    | none => exact Or.inl rfl
    | some v =>
      rcases h2 _ _ hx with h | h
      · exact Or.inl h
      · refine Or.inr ⟨q, hq, ?_⟩
        unfold Nd.at3
        rw [hs]
        simp [h]
  · exact Or.inl rfl

variable [RealFns K]

theorem lookup_remains {t s s' : Shallot K} (hs : (diskScheme t).Holds s) {c : Cube}
    (hc : c = .diskRadius ∨ c = .inclination ∨ c = .tilt) {w : PyVal K} {y x r : ℤ} {v : XF K}
    (h : Shallot.lookup c w y x r s = (.ok v, s')) :
    0 ≤ y ∧ 0 ≤ x ∧ 0 ≤ r ∧ Remains t c y.toNat x.toNat r.toNat v ∧ (diskScheme t).Holds s' ∧
      ∃ a b c', (∃ q, t.prop c = some q ∧ q.data.shape = [a, b, c']) ∧ y < a ∧ x < b ∧ r < c' := by
  have hh := lookup_holds (diskScheme_closed t) c w y x r s hs
  rw [h] at hh
  unfold Shallot.lookup at h
  rcases bind_cases (Shallot.getCube c w) (fun d => Meth.lift (d.get3 y x r)) s with
    ⟨d, s1, h1, h2⟩ | ⟨e, s1, h1, h2⟩
  · rw [h2] at h
    obtain ⟨p, hp, rfl⟩ := getCube_stored h1
    have hs1 := getCube_holds (diskScheme_closed t) c w (.bool true) s hs
    rw [h1] at hs1
    have hcube := hs1.props c
    rw [hp] at hcube
    cases hg : p.data.get3 y x r with
    | error e => rw [hg] at h; cases h
    | ok v' =>
      rw [hg] at h
      cases h
      obtain ⟨a, b, c', e1, e2, e3, e4, e5, e6, e7, rfl⟩ := get3_cases hg
      obtain ⟨q, hq⟩ : ∃ q, t.prop c = some q := by
        rcases hc with rfl | rfl | rfl <;> exact ⟨_, rfl⟩
      exact ⟨e2, e4, e6, at3_remains hc hcube, hh, a, b, c',
        ⟨q, hq, (hcube hc p q rfl hq).1.symm.trans e1⟩, e3, e5, e7⟩
  · rw [h2] at h; cases h

theorem vectorAt_cases {l : List (XF K)} {i : ℤ} {v : XF K} (h : Shallot.vectorAt l i = .ok v) :
    l[i.toNat]? = some v := by
  unfold Shallot.vectorAt at h
  split at h
  · rename_i x hx
    cases h
    exact hx
  · cases h

theorem lift_bind_cases {S α β : Type} {e : Except Err α} {f : α → Meth S β} {s s' : S} {b : β}
    (h : (Meth.lift e >>= f) s = (.ok b, s')) : ∃ a, e = .ok a ∧ f a s = (.ok b, s') := by
  cases e with
  | error e => cases h
  | ok a => exact ⟨a, rfl, h⟩

theorem bind_ok_cases {S α β : Type} {m : Meth S α} {f : α → Meth S β} {s s' : S} {b : β}
    (h : (m >>= f) s = (.ok b, s')) : ∃ a s1, m s = (.ok a, s1) ∧ f a s1 = (.ok b, s') := by
  rcases bind_cases m f s with ⟨a, s1, h1, h2⟩ | ⟨e, s1, h1, h2⟩
  · exact ⟨a, s1, h1, h2 ▸ h⟩
  · rw [h2] at h; cases h

/-- A disk that is reported is, number by number, the one that `t` has there, or NaN. -/
structure ReportedFrom (t : Shallot K) (radius inclination tilt dx dy : XF K) (y x r : ℕ) : Prop where
  inY : y < t.params.gridShape.1
  inX : x < t.params.gridShape.2.1
  inR : r < t.params.gridShape.2.2
  radius : Remains t .diskRadius y x r radius
  inclination : Remains t .inclination y x r inclination
  tilt : Remains t .tilt y x r tilt
  dx : t.params.dx.data[x]? = some dx
  dy : t.params.dy.data[y]? = some dy

theorem gridPoint_reported {t s s' : Shallot K} (hs : (diskScheme t).Holds s) (hp : s.params = t.params)
    (ht : Sound t) {vy vx vr w : PyVal K} {pt : Shallot.Point K}
    (h : Shallot.gridPoint vy vx vr w s = (.ok pt, s')) :
    ∃ y x r, ReportedFrom t pt.diskRadius pt.inclination pt.tilt pt.dx pt.dy y x r := by
  unfold Shallot.gridPoint at h
  rw [Meth.get_bind] at h
  obtain ⟨y, hy, h⟩ := lift_bind_cases h
  obtain ⟨x, hx, h⟩ := lift_bind_cases h
  obtain ⟨r, hr, h⟩ := lift_bind_cases h
  obtain ⟨v1, s1, h1, h⟩ := bind_ok_cases h
  obtain ⟨v2, s2, h2, h⟩ := bind_ok_cases h
  obtain ⟨v3, s3, h3, h⟩ := bind_ok_cases h
  obtain ⟨dx, hdx, h⟩ := lift_bind_cases h
  obtain ⟨dy, hdy, h⟩ := lift_bind_cases h
  obtain ⟨rf, hrf, h⟩ := lift_bind_cases h
  obtain ⟨v4, s4, h4, h⟩ := bind_ok_cases h
  obtain ⟨v5, s5, h5, h⟩ := bind_ok_cases h
  obtain ⟨v6, s6, h6, h⟩ := bind_ok_cases h
  obtain ⟨v7, s7, h7, h⟩ := bind_ok_cases h
  cases h
  obtain ⟨y0, x0, r0, m1, k1, a, b, c, ⟨q, hq, hsh⟩, ya, xb, rc⟩ := lookup_remains hs (Or.inl rfl) h1
  obtain ⟨-, -, -, m2, k2, -⟩ := lookup_remains k1 (Or.inr (Or.inl rfl)) h2
  obtain ⟨-, -, -, m3, k3, -⟩ := lookup_remains k2 (Or.inr (Or.inr rfl)) h3
  have hsq := (ht.props .diskRadius q hq).data.1
  rw [hsh] at hsq
  simp only [List.cons.injEq, and_true] at hsq
  obtain ⟨rfl, rfl, rfl⟩ := hsq
  rw [hp] at hdx hdy
  exact ⟨y.toNat, x.toNat, r.toNat, by omega, by omega, by omega, m1, m2, m3, vectorAt_cases hdx,
    vectorAt_cases hdy⟩

theorem solutionLoop_reported {t : Shallot K} (ht : Sound t) : ∀ (n : ℕ) (s s' : Shallot K)
    (rows : List (Shallot.Solution K)), (diskScheme t).Holds s → Owned t s →
    Shallot.solutionLoop n s = (.ok rows, s') → ∀ row ∈ rows, ∃ y x r,
      ReportedFrom t row.diskRadius row.inclination row.tilt row.dx row.dy y x r
  | 0, s, s', rows, _, _, h, row, hr => by
    cases h
    cases hr
  | n + 1, s, s', rows, hs, ho, h, row, hr => by
    unfold Shallot.solutionLoop at h
    obtain ⟨w, s1, h1, h⟩ := bind_ok_cases h
    obtain ⟨rest, s2, h2, h⟩ := bind_ok_cases h
    cases h
    have hs1 := solution_holds (diskScheme_closed t) s hs
    have ho1 := solution_owned s ho
    rw [h1] at hs1 ho1
    rcases List.mem_cons.1 hr with rfl | hr
    · unfold Shallot.solution at h1
      rw [Meth.get_bind] at h1
      cases hf : s.gradientFit with
      | none => rw [hf] at h1; cases h1
      | some fit =>
        rw [hf] at h1
        simp only at h1
        obtain ⟨i, hi, h1⟩ := lift_bind_cases h1
        obtain ⟨pt, s3, h3, h1⟩ := bind_ok_cases h1
        obtain ⟨u, s4, h4, h1⟩ := bind_ok_cases h1
        cases h1
        exact gridPoint_reported hs ho.params ht h3
    · exact solutionLoop_reported ht n s1 s' rest hs1 ho1 h2 row hr

theorem extractSolutions_reported {t s s' : Shallot K} (ht : Sound t) (hs : (diskScheme t).Holds s)
    (ho : Owned t s) {v : PyVal K} {rows : List (Shallot.Solution K)}
    (h : Shallot.extractSolutions v s = (.ok rows, s')) : ∀ row ∈ rows, ∃ y x r,
      ReportedFrom t row.diskRadius row.inclination row.tilt row.dx row.dy y x r := by
  unfold Shallot.extractSolutions at h
  rw [Meth.get_bind] at h
  obtain ⟨m, hm, h⟩ := lift_bind_cases h
  obtain ⟨n, hn, h⟩ := lift_bind_cases h
  obtain ⟨f, s1, h1, h⟩ := bind_ok_cases h
  have hs1 := getGradientFit_holds (diskScheme_closed t) (.bool true) (.bool true) s hs
  have ho1 := getGradientFit_owned (.bool true) (.bool true) s ho
  rw [h1] at hs1 ho1
  exact solutionLoop_reported ht n s1 s' rows hs1 ho1 h

end

/-! ## C91 -/

/-- The ring, drawn around `(x, y)`, covers of the line on which the star moves exactly the points from
`-1/2` to `1/2`: `get_patch` sends a point of the inside of the unit circle to `(z, 0)` exactly if `|z| < 1/2`,
and a point of the circle itself, which gives the outer edge, exactly if `|z| = 1/2`. -/
def Spec.CoversEclipse (ring : RingObj ℝ) (x y : PyVal ℝ) : Prop :=
  ∀ (C : Type) (codes : List C) (color : String) (z : ℝ),
    ((∃ (p : Pt) (P : Patch C), p.1 ^ 2 + p.2 ^ 2 < 1 ∧
      getPatch [p] codes ring x y (.str color) = .ok (some P) ∧ P.outer = [(z, 0)]) ↔ |z| < 1 / 2) ∧
    ((∃ (p : Pt) (P : Patch C), p.1 ^ 2 + p.2 ^ 2 = 1 ∧
      getPatch [p] codes ring x y (.str color) = .ok (some P) ∧ P.outer = [(z, 0)]) ↔ |z| = 1 / 2)

/-- The numbers describe a disk from which rings can be made that cover the star exactly during the
eclipse, whatever the inner radius and the transmission. -/
def Spec.DiskOfEclipse (radius inclination tilt dx dy : XF ℝ) : Prop :=
  ∃ R, radius = .fin R ∧ 0 < R ∧ ∀ ri tr : ℝ, 0 < ri → ri < R → 0 ≤ tr → tr ≤ 1 →
    ∃ ring, newRing (.float (.fin ri)) (.npFloat .w64 radius) (.float (.fin tr))
        (.npFloat .w64 inclination) (.npFloat .w64 tilt) = .ok ring ∧
      CoversEclipse ring (.npFloat .w64 dx) (.npFloat .w64 dy)

theorem number_np (z : XF ℝ) (l u e : PyVal ℝ) :
    (number (.npFloat .w64 z) (.bool false) l u e >>= fun v => .ok v.num) =
      (number (.float z) (.bool false) l u e >>= fun v => (.ok v.num : Except Err (XF ℝ))) := by
  have h1 : numberType (.npFloat .w64 z) (.bool false) = .ok (.npFloat .w64 z : PyVal ℝ) := rfl
  have h2 : numberType (.float z) (.bool false) = .ok (.float z : PyVal ℝ) := rfl
  unfold number
  rw [h1, h2, ok_bind, ok_bind]
  unfold numberBounds
  cases numberType l with
  | error e => rfl
  | ok l' =>
  cases numberType u with
  | error e => rfl
  | ok u' =>
  cases boolean e with
  | error e => rfl
  | ok b =>
  simp only [ok_bind, PyVal.num_float, PyVal.num_npFloat]
  split_ifs <;> rfl

theorem newRing_np (ri tr R i t : ℝ) (h0 : ri ≠ 0) :
    newRing (.float (.fin ri)) (.npFloat .w64 (.fin R)) (.float (.fin tr)) (.npFloat .w64 (.fin i))
      (.npFloat .w64 (.fin t)) = newRing (.float (.fin ri)) (.float (.fin R)) (.float (.fin tr))
      (.float (.fin i)) (.float (.fin t)) := by
  have e1 : ∀ a, checkOuter a (.npFloat .w64 (.fin R)) = checkOuter a (.float (.fin R)) :=
    fun a => number_np _ _ _ _
  have e2 : checkInclination (.npFloat .w64 (.fin i)) = checkInclination (.float (.fin i)) :=
    number_np _ _ _ _
  have e3 : checkTilt (.npFloat .w64 (.fin t)) = checkTilt (.float (.fin t)) := number_np _ _ _ _
  unfold newRing
  simp only [e1, e2, e3]

/-- From a spanning ellipse to the drawn ring. -/
theorem disk_of_spans {dx dy a i t : ℝ} (ha : 0 < a) (hi0 : 0 ≤ i) (hi : i < 90) (ht0 : 0 ≤ t)
    (ht : t ≤ 180) (h : Spans dx dy a i t) :
    DiskOfEclipse (.fin a) (.fin i) (.fin t) (.fin dx) (.fin dy) := by
  refine ⟨a, rfl, ha, ?_⟩
  intro ri tr h1 h2 h3 h4
  refine ⟨⟨.fin ri, .fin a, .fin tr, .fin i, .fin t⟩, ?_, ?_⟩
  · rw [newRing_np _ _ _ _ _ h1.ne', newRing_fin _ _ _ _ _ h1.ne',
      if_pos ⟨h1, h2, ⟨h3, h4⟩, ⟨hi0, hi.le⟩, by linarith, ht⟩]
  · intro C codes color z
    have hP : ∀ p : Pt, getPatch [p] codes ⟨.fin ri, .fin a, .fin tr, .fin i, .fin t⟩
        (.npFloat .w64 (.fin dx)) (.npFloat .w64 (.fin dy)) (.str color) =
        .ok (some ⟨[outerVertex a (deg2rad i) (deg2rad t) (dx, dy) p],
          [innerVertex ri (deg2rad i) (deg2rad t) (dx, dy) p], codes ++ codes, 1 - tr⟩) := fun p => rfl
    obtain ⟨l1, l2⟩ := spans_line dx dy a i t ha (cos_deg_pos hi0 hi) h z
    have key : ∀ Q : ℝ → Prop, (∃ (p : Pt) (P : Patch C), Q (p.1 ^ 2 + p.2 ^ 2) ∧
        getPatch [p] codes ⟨.fin ri, .fin a, .fin tr, .fin i, .fin t⟩
        (.npFloat .w64 (.fin dx)) (.npFloat .w64 (.fin dy)) (.str color) = .ok (some P) ∧
        P.outer = [(z, 0)]) ↔
        ∃ p : Pt, Q (p.1 ^ 2 + p.2 ^ 2) ∧
          outerVertex a (deg2rad i) (deg2rad t) (dx, dy) p = (z, 0) := by
      intro Q
      constructor
      · rintro ⟨p, P, q1, q2, q3⟩
        rw [hP] at q2
        cases q2
        exact ⟨p, q1, by simpa using q3⟩
      · rintro ⟨p, q1, q2⟩
        exact ⟨p, _, q1, hP p, by rw [q2]⟩
    exact ⟨(key (· < 1)).trans l1, (key (· = 1)).trans l2⟩

theorem reported_disk {t : Shallot ℝ} {radius inclination tilt dx dy : XF ℝ} {y x r : ℕ}
    (h : ReportedFrom t radius inclination tilt dx dy y x r)
    (hl : ∃ dx dy : ℝ, t.params.dx.data[x]? = some (.fin dx) ∧ t.params.dy.data[y]? = some (.fin dy) ∧
      LayerOf dx dy (t.fxMap.data.at3 y x r) (t.fyMap.data.at3 y x r) (t.diskRadius.data.at3 y x r)
        (t.inclination.data.at3 y x r) (t.tilt.data.at3 y x r))
    (h1 : radius ≠ .nan) (h2 : inclination ≠ .nan) (h3 : tilt ≠ .nan) :
    DiskOfEclipse radius inclination tilt dx dy := by
  obtain ⟨ex, ey, e1, e2, hl⟩ := hl
  obtain ⟨q, ⟨⟩, k1⟩ := h.radius.resolve_left h1
  obtain ⟨q, ⟨⟩, k2⟩ := h.inclination.resolve_left h2
  obtain ⟨q, ⟨⟩, k3⟩ := h.tilt.resolve_left h3
  rw [h.dx] at e1
  rw [h.dy] at e2
  cases e1
  cases e2
  rcases hl with ⟨hn, -⟩ | ⟨fx, fy, a, b, c, -, -, j1, j2, j3, -, -, -, j4, j5, j6, j7, j8, j9, -⟩
  · exact absurd (k1.trans hn) h1
  · rw [k1, k2, k3, j1, j2, j3]
    exact disk_of_spans j4 j5 j6 j8 j9 j7

section
variable (minX maxX numX minY maxY numY maxRf numRf : PyVal ℝ) (g : GridParams ℝ)
    (hg : GridParams.new minX maxX numX minY maxY numY maxRf numRf = .ok g) (a b c d m : ℝ)
    (ha : IsNumber false minX (.fin a)) (hb : IsNumber false maxX (.fin b))
    (hc : IsNumber false minY (.fin c)) (hd : IsNumber false maxY (.fin d))
    (hm : IsNumber false maxRf (.fin m))
    (hext : g.extendable = true → 2 ≤ g.sliceShape.1 ∧ 2 ≤ g.sliceShape.2) (v k : PyVal ℝ)
    (s : Shallot ℝ) (g' : GridParams ℝ) (h : Shallot.new v k g = (.ok s, g'))
include hg ha hb hc hd hm hext h

/-- **C91** A grid is built over finite coordinates; then any sequence of calls is made on it, with any
arguments and exceptions caught.  If `get_grid_point_data`, masked or not, then gives a disk radius, an
inclination and a tilt (none of them NaN), a ring can be made from them, with any inner radius below the
disk radius and any transmission, and the ring drawn at the `dx` and `dy` of the point covers the star
exactly during the eclipse. -/
theorem C91_point (ops : List (GridOp ℝ)) (vy vx vr w : PyVal ℝ) (pt : Shallot.Point ℝ)
    (s' : Shallot ℝ) (hpt : Shallot.gridPoint vy vx vr w (runGrid ops s) = (.ok pt, s'))
    (h1 : pt.diskRadius ≠ .nan) (h2 : pt.inclination ≠ .nan) (h3 : pt.tilt ≠ .nan) :
    DiskOfEclipse pt.diskRadius pt.inclination pt.tilt pt.dx pt.dy := by
  obtain ⟨keep, hk, hmade⟩ := made_new _ _ _ _ _ _ _ _ g g' hg hext v k s h
  obtain ⟨n, hn⟩ := hmade.count
  obtain ⟨y, x, r, hr⟩ := gridPoint_reported
    (runGrid_holds (diskScheme_closed s) ops s (diskScheme_start s))
    (runGrid_owned ops s hmade.owned).params hmade.sound hpt
  exact reported_disk hr (C75_grid _ _ _ _ _ _ _ _ g hg a b c d m ha hb hc hd hm hext v k n hn keep hk s g'
    h y x r hr.inY hr.inX hr.inR) h1 h2 h3

/-- **C91** The same of every solution that `extract_solutions` returns. -/
theorem C91_solution (ops : List (GridOp ℝ)) (num : PyVal ℝ) (rows : List (Shallot.Solution ℝ))
    (s' : Shallot ℝ) (hrows : Shallot.extractSolutions num (runGrid ops s) = (.ok rows, s'))
    (row : Shallot.Solution ℝ) (hrow : row ∈ rows)
    (h1 : row.diskRadius ≠ .nan) (h2 : row.inclination ≠ .nan) (h3 : row.tilt ≠ .nan) :
    DiskOfEclipse row.diskRadius row.inclination row.tilt row.dx row.dy := by
  obtain ⟨keep, hk, hmade⟩ := made_new _ _ _ _ _ _ _ _ g g' hg hext v k s h
  obtain ⟨n, hn⟩ := hmade.count
  obtain ⟨y, x, r, hr⟩ := extractSolutions_reported hmade.sound
    (runGrid_holds (diskScheme_closed s) ops s (diskScheme_start s))
    (runGrid_owned ops s hmade.owned) hrows row hrow
  exact reported_disk hr (C75_grid _ _ _ _ _ _ _ _ g hg a b c d m ha hb hc hd hm hext v k n hn keep hk s g'
    h y x r hr.inY hr.inX hr.inR) h1 h2 h3

end

/-- **C91** In a ring system with the inclination and the tilt of the disk: when a ring that reaches out to
the disk radius, whatever its own inclination and tilt, has been added anywhere, the system holds a ring
that covers the star exactly during the eclipse when it is drawn at the centre of the disk. -/
theorem C91_system (inclination tilt dx dy : XF ℝ) (R : ℝ)
    (hdisk : DiskOfEclipse (.fin R) inclination tilt dx dy) (sys : RSys ℝ) (hs : GoodGeometry sys)
    (hi : sys.inclination = inclination) (ht : sys.tilt = tilt) (ri tr : ℝ) (h1 : 0 < ri) (h2 : ri < R)
    (h3 : 0 ≤ tr) (h4 : tr ≤ 1) (i' t' : XF ℝ) (index : PyVal ℝ) (k : ℕ) (hk : IsIndex index k)
    (hadd : (addRing index ⟨sys, ⟨.fin ri, .fin R, .fin tr, i', t'⟩⟩).1 = .ok ()) :
    ∃ ring, (addRing index ⟨sys, ⟨.fin ri, .fin R, .fin tr, i', t'⟩⟩).2.sys.rings[k]? = some ring ∧
      ring.outer = .fin R ∧ CoversEclipse ring (.npFloat .w64 dx) (.npFloat .w64 dy) := by
  obtain ⟨R', hR, -, hall⟩ := hdisk
  cases hR
  obtain ⟨ring, hnew, hcov⟩ := hall ri tr h1 h2 h3 h4
  obtain ⟨i, t, gi, gt, i0, i9, t0, t1⟩ := hs
  rw [hi] at gi
  rw [ht] at gt
  subst gi gt
  rw [newRing_np _ _ _ _ _ h1.ne', newRing_fin _ _ _ _ _ h1.ne',
    if_pos ⟨h1, h2, ⟨h3, h4⟩, ⟨i0, i9⟩, t0, t1⟩] at hnew
  cases hnew
  have hg : GoodGeometry sys := ⟨i, t, hi, ht, i0, i9, t0, t1⟩
  have hle := ((C11_add_ring_ok_iff sys hg index k hk _).1 hadd).2.1
  rw [C11_add_ring_effect sys hg index k hk _ hadd]
  refine ⟨_, ?_, rfl, hcov⟩
  have hlen : (sys.rings.take k).length = k := by
    rw [List.length_take]; omega
  simp only [Int.toNat_natCast]
  rw [List.getElem?_append_right (by omega), hlen]
  simp [adopted, hi, ht]

/-- A grid, a history and a grid point that meet the hypotheses of `C91_point`: the disk of the throw-away
grid above and to the right of the origin, after its inclination has been read. -/
theorem throwAway_covers : ∃ (s : Shallot ℝ) (pt : Shallot.Point ℝ) (s' : Shallot ℝ),
    Shallot.new (.int 100) (.bool false) throwAway = (.ok s, s.params) ∧
    Shallot.gridPoint (.int 2) (.int 2) (.int 1) (.bool true)
      (runGrid [.get .inclination (.bool false) (.bool false)] s) = (.ok pt, s') ∧
    pt.diskRadius ≠ .nan ∧ pt.inclination ≠ .nan ∧ pt.tilt ≠ .nan ∧
    DiskOfEclipse pt.diskRadius pt.inclination pt.tilt pt.dx pt.dy := by
  obtain ⟨s, h1, hgs, dx, dy, a, b, c, e1, e2, k1, k2, k3, -⟩ := throwAway_spans
  have hext : throwAway.extendable = true → 2 ≤ throwAway.sliceShape.1 ∧ 2 ≤ throwAway.sliceShape.2 :=
    fun _ => ⟨le_rfl, le_rfl⟩
  obtain ⟨keep, hk, hmade⟩ := made_new _ _ _ _ _ _ _ _ throwAway s.params throwAway_new hext _ _ s h1
  have hrun : runGrid [.get .inclination (.bool false) (.bool false)] s = s := by
    show (Shallot.getCube _ _ _ s).2 = s
    rw [C43_plain_partial s .inclination _ rfl]
  obtain ⟨s₁, d₁, f1, hfrom, -⟩ := throwAway_disk
  rw [h1] at f1
  obtain rfl : s = s₁ := by
    injection f1 with f1 _
    injection f1
  obtain ⟨m1, m2, m3, -, -⟩ := hfrom.masks
  have hmask : ∀ i, ¬ MaskedAt s i := by
    rintro i (⟨m, h, -⟩ | ⟨m, h, -⟩ | ⟨m, h, -⟩ | ⟨l, h, -⟩)
    · rw [m1] at h; cases h
    · rw [m2] at h; cases h
    · rw [m3] at h; cases h
    · rw [hmade.nothing.1] at h; cases h
  have hmap : s.diagnosticMap ≠ none := by rw [hfrom.map]; simp
  obtain ⟨pt, s', p1, -, -, p2⟩ := C74_point s hmade.sound hmap true 2 2 1 (.int 2) (.int 2) (.int 1)
    (.int 2) (.int 2) (.int 1) (by rw [hgs]; norm_num) (by rw [hgs]; norm_num) (by rw [hgs]; norm_num)
  have hval : ∀ (c : Cube) (p : GProp ℝ) (v : XF ℝ) (z : ℝ), s.prop c = some p → p.mask = none →
      p.data.at3 2 2 1 = .fin z → Seen s true p (flat s 2 2 1) v → v ≠ .nan := by
    intro c p v z hp hm hz hv
    have := hv.2 (by
      rintro (⟨m, hm', -⟩ | ⟨-, h⟩)
      · rw [hm] at hm'; cases hm'
      · exact hmask _ h)
    have hsh := (hmade.sound.props c p hp).data.1
    rw [at3_get hsh, List.getD_eq_getElem?_getD] at hz
    unfold flat at this
    rw [this] at hz
    rw [show v = .fin z from hz]
    simp
  have n1 := hval .diskRadius _ _ a rfl m1 k1 p2.diskRadius
  have n2 := hval .inclination _ _ b rfl m2 k2 p2.inclination
  have n3 := hval .tilt _ _ c rfl m3 k3 p2.tilt
  refine ⟨s, pt, s', h1, by rw [hrun]; exact p1, n1, n2, n3, ?_⟩
  exact C91_point _ _ _ _ _ _ _ _ throwAway throwAway_new 0 1 0 1 2
    (Or.inl ⟨0, .int 0, by simp⟩) (Or.inl ⟨1, .int 1, by simp⟩) (Or.inl ⟨0, .int 0, by simp⟩)
    (Or.inl ⟨1, .int 1, by simp⟩) (Or.inl ⟨2, .int 2, by simp⟩) hext _ _ s _ h1
    [.get .inclination (.bool false) (.bool false)] _ _ _ _ pt s' (by rw [hrun]; exact p1) n1 n2 n3

end Beyonce
