import Verif.Props.Rounding

/-!
# Property C86: `merge_rings` undoes `split_rings` in rounded arithmetic
-/

set_option linter.unusedSectionVars false

namespace Beyonce
open Spec
variable {K : Type} [Field K] [LinearOrder K] [IsStrictOrderedRing K]

/-- The rings are wide enough for their divisions: the parts are wider than `12` times the error of
the outer radius. -/
def Spec.WideFor (u : K) (g : Seg K) (d : ℕ) : Prop := 12 * u * g.b < (g.b - g.a) / d

/-- Two neighbours that `merge_rings` must not join: the transmissions differ, or the gap is larger
than the tolerance by `12` times the error of the largest radius `B`. -/
def Spec.WellApart (u B tol : K) (x y : Seg K) : Prop :=
  y.t ≠ x.t ∨ tol + 12 * u * B ≤ y.a - x.b

/-- A ring as it comes back: the inner radius is rounded, the outer radius is off by at most `8`
times the error of the outer radius, and the transmission is the same. -/
def Spec.ComesBack (rnd : K → K) (u : K) (g g' : Seg K) : Prop :=
  g'.a = rnd g.a ∧ |g'.b - g.b| ≤ 8 * u * g.b ∧ g'.t = g.t

/-- The computed part `i` of `d` parts of a ring. -/
def roundedPart (rnd : K → K) (g : Seg K) (d i : ℕ) : Seg K :=
  let δ := rnd (rnd (g.b - g.a) / d)
  let inner := rnd (g.a + rnd (i * δ))
  ⟨inner, rnd (inner + δ), g.t⟩

/-- The computed parts are close to the true ones, and not empty. -/
theorem roundedPart_near {rnd : K → K} {u : K} (hu : Rounds rnd u) (hu0 : 0 ≤ u) (hu1 : u ≤ 1 / 100)
    {g : Seg K} (h0 : 0 < g.a) (hab : g.a < g.b) {d i : ℕ} (hi : i < d) :
    let w := (g.b - g.a) / d
    let p := roundedPart rnd g d i
    |p.a - (g.a + i * w)| ≤ 5 * u * g.b ∧ |p.b - (g.a + (i + 1) * w)| ≤ 8 * u * g.b ∧ 0 < p.a ∧
      (12 * u * g.b < w → p.a < p.b) := by
  obtain ⟨a, b, t⟩ := g
  simp only at h0 hab
  have hd' : (0 : K) < d := by exact_mod_cast (by omega : 0 < d)
  have hi0 : (0 : K) ≤ i := by positivity
  have hi' : (i : K) + 1 ≤ d := by exact_mod_cast hi
  simp only [roundedPart]
  have hb0 : 0 < b := h0.trans hab
  obtain ⟨D, hD⟩ : ∃ D, D = b - a := ⟨_, rfl⟩
  obtain ⟨w, hw⟩ : ∃ w, w = D / d := ⟨_, rfl⟩
  rw [← hD, ← hw]
  have hD0 : 0 < D := by rw [hD]; linarith
  have hw0 : 0 < w := by rw [hw]; positivity
  have hwd : w * d = D := by rw [hw]; field_simp
  have hmul : ∀ {x y : K}, x ≤ y → u * x ≤ u * y := fun h => mul_le_mul_of_nonneg_left h hu0
  have hux : ∀ {x : K}, 0 ≤ x → u * x ≤ 1 / 100 * x := fun h => mul_le_mul_of_nonneg_right hu1 h
  -- the width of a part
  obtain ⟨q, hq⟩ : ∃ q, q = rnd D / d := ⟨_, rfl⟩
  rw [← hq]
  obtain ⟨b1, b2⟩ := rounds_bounds hu hD0.le
  have hq1 : w - u * w ≤ q := by
    rw [hq, le_div_iff₀ hd']
    calc (w - u * w) * d = w * d - u * (w * d) := by ring
      _ ≤ rnd D := by rw [hwd]; exact b1
  have hq2 : q ≤ w + u * w := by
    rw [hq, div_le_iff₀ hd']
    calc rnd D ≤ D + u * D := b2
      _ = w * d + u * (w * d) := by rw [hwd]
      _ = (w + u * w) * d := by ring
  have huw := hux hw0.le
  have hq0 : 0 ≤ q := by linarith
  obtain ⟨c1, c2⟩ := rounds_bounds hu hq0
  obtain ⟨δ, hδ⟩ : ∃ δ, δ = rnd q := ⟨_, rfl⟩
  rw [← hδ] at c1 c2 ⊢
  have huq : u * q ≤ u * (w * (1 + 1 / 100)) := hmul (by linarith)
  have hδ1 : w - 201 / 100 * (u * w) ≤ δ := by
    have : u * (w * (1 + 1 / 100)) = 101 / 100 * (u * w) := by ring
    linarith
  have hδ2 : δ ≤ w + 201 / 100 * (u * w) := by
    have : u * (w * (1 + 1 / 100)) = 101 / 100 * (u * w) := by ring
    linarith
  have hδ0 : 0 ≤ δ := by linarith
  -- how far the part is from the inner radius
  have hiw : (i : K) * w + w ≤ D := by
    rw [← hwd]
    calc (i : K) * w + w = w * (i + 1) := by ring
      _ ≤ w * d := mul_le_mul_of_nonneg_left hi' hw0.le
  have hiw0 : 0 ≤ (i : K) * w := by positivity
  have huiw : u * (i * w) ≤ u * D := hmul (by linarith)
  have huD := hux hD0.le
  have hDb : D ≤ b := by rw [hD]; linarith
  have huDb := hmul hDb
  have hub := hux hb0.le
  have hwD : w ≤ D := by linarith
  have huwD := hmul hwD
  have hm1 : (i : K) * w - 201 / 100 * (u * D) ≤ i * δ := by
    have := mul_le_mul_of_nonneg_left hδ1 hi0
    have e : (i : K) * (w - 201 / 100 * (u * w)) = i * w - 201 / 100 * (u * (i * w)) := by ring
    linarith
  have hm2 : i * δ ≤ (i : K) * w + 201 / 100 * (u * D) := by
    have := mul_le_mul_of_nonneg_left hδ2 hi0
    have e : (i : K) * (w + 201 / 100 * (u * w)) = i * w + 201 / 100 * (u * (i * w)) := by ring
    linarith
  have hm0 : 0 ≤ i * δ := by positivity
  obtain ⟨d1, d2⟩ := rounds_bounds hu hm0
  obtain ⟨N, hN⟩ : ∃ N, N = rnd (i * δ) := ⟨_, rfl⟩
  rw [← hN] at d1 d2 ⊢
  have hN0 : 0 ≤ N := by rw [hN]; exact rounds_nonneg hu hu1 hm0
  have hum : u * (i * δ) ≤ u * (D * (103 / 100)) := hmul (by linarith)
  have hum' : u * (D * (103 / 100)) = 103 / 100 * (u * D) := by ring
  -- the inner radius
  obtain ⟨e1, e2⟩ := rounds_bounds hu (add_nonneg h0.le hN0)
  obtain ⟨I, hI⟩ : ∃ I, I = rnd (a + N) := ⟨_, rfl⟩
  have hI0 : 0 < I := by rw [hI]; exact rounds_pos hu hu1 (by linarith)
  rw [← hI] at e1 e2 ⊢
  have huaN : u * (a + N) ≤ u * (b * (104 / 100)) := hmul (by linarith)
  have huaN' : u * (b * (104 / 100)) = 104 / 100 * (u * b) := by ring
  -- the outer radius
  obtain ⟨f1, f2⟩ := rounds_bounds hu (add_nonneg hI0.le hδ0)
  have huO : u * (I + δ) ≤ u * (b * (110 / 100)) := hmul (by linarith)
  have huO' : u * (b * (110 / 100)) = 110 / 100 * (u * b) := by ring
  have e : a + ((i : K) + 1) * w = a + i * w + w := by ring
  have e5 : 5 * u * b = 5 * (u * b) := by ring
  have e8 : 8 * u * b = 8 * (u * b) := by ring
  have e12 : 12 * u * b = 12 * (u * b) := by ring
  rw [e, e5, e8, e12, abs_le, abs_le]
  exact ⟨⟨by linarith, by linarith⟩, ⟨by linarith, by linarith⟩, hI0, fun h => by linarith⟩

/-- The first part begins where the ring begins. -/
theorem roundedPart_first {rnd : K → K} {u : K} (hu : Rounds rnd u) (g : Seg K) (d : ℕ) :
    (roundedPart rnd g d 0).a = rnd g.a := by
  have h0 : rnd 0 = 0 := by
    have := hu 0
    simpa using this
  simp [roundedPart, h0]

theorem roundedPart_ok {rnd : K → K} {u : K} (hu : Rounds rnd u) (hu0 : 0 ≤ u) (hu1 : u ≤ 1 / 100)
    {g : Seg K} (hg : g.Ok) {d i : ℕ} (hi : i < d) (hw : WideFor u g d) :
    (roundedPart rnd g d i).Ok := by
  obtain ⟨h1, h2, h3, h4⟩ := hg
  obtain ⟨-, -, h5, h6⟩ := roundedPart_near hu hu0 hu1 h1 h2 hi
  exact ⟨h5, h6 hw, h3, h4⟩

theorem ringlet_rounded {rnd : K → K} {u : K} (hu : Rounds rnd u) (hu0 : 0 ≤ u) (hu1 : u ≤ 1 / 100)
    {s : RSys K} (hs : GoodGeometry s) {r : RingObj K} {g : Seg K} (hg : g.Ok)
    (h1 : r.inner = .fin g.a) (h2 : r.outer = .fin g.b) (h3 : r.transmission = .fin g.t)
    {d i : ℕ} (hi : i < d) (hw : WideFor u g d) :
    ringlet rnd s r d i = .ok (ringOf s (roundedPart rnd g d i)) := by
  have hd' : (d : K) ≠ 0 := by
    have : (0 : K) < d := by exact_mod_cast (by omega : 0 < d)
    exact this.ne'
  rw [← newRing_ringOf hs (roundedPart_ok hu hu0 hu1 hg hi hw)]
  unfold ringlet
  simp only [h1, h2, h3, XF.sub, XF.neg, XF.add, XF.div, hd', if_false, XF.mul, XF.round,
    ← sub_eq_add_neg, roundedPart]

/-- The computed parts of all rings. -/
def roundedSegs (rnd : K → K) (l : List (Seg K × ℕ)) : List (Seg K) :=
  l.flatMap fun p => (List.range p.2).map (roundedPart rnd p.1 p.2)

theorem splitLoop_rounded {rnd : K → K} {u : K} (hu : Rounds rnd u) (hu0 : 0 ≤ u)
    (hu1 : u ≤ 1 / 100) {s : RSys K} (hs : GoodGeometry s) (rs : List (RingObj K))
    (segs : List (Seg K)) (ds : List ℕ) (h : HasSegs rs segs) (hok : ∀ g ∈ segs, g.Ok)
    (hw : ∀ p ∈ segs.zip ds, WideFor u p.1 p.2) :
    splitLoop rnd s (rs.zip ds) = .ok ((roundedSegs rnd (segs.zip ds)).map (ringOf s)) := by
  induction rs generalizing segs ds with
  | nil => obtain rfl := hasSegs_nil h; simp [splitLoop, roundedSegs]
  | cons r rs ih =>
    obtain ⟨g, gs, rfl, h1, h2, h3, h4⟩ := hasSegs_cons h
    cases ds with
    | nil => simp [splitLoop, roundedSegs]
    | cons d ds =>
      have e := mapM_ok (ringlet rnd s r d) (fun i => ringOf s (roundedPart rnd g d i))
        (List.range d) (fun i hi => ringlet_rounded hu hu0 hu1 hs (hok g (by simp)) h1 h2 h3
          (List.mem_range.1 hi) (hw (g, d) (by simp)))
      simp only [List.zip_cons_cons, splitLoop, e, bind, Except.bind,
        ih gs ds h4 (fun g hg => hok g (by simp [hg])) (fun p hp => hw p (by simp [hp]))]
      simp [roundedSegs, List.map_map, Function.comp_def]

/-- The test of `merge_rings` in rounded arithmetic. -/
theorem merge_test (rnd : K → K) (tol : K) (x : K) (t : K) (s : RSys K) (g : Seg K) :
    (XF.lt (((ringOf s g).inner.sub (.fin x)).round rnd).abs (.fin tol) &&
      XF.eqb (ringOf s g).transmission (.fin t)) = true ↔ |rnd (g.a - x)| < tol ∧ g.t = t := by
  simp [ringOf, XF.sub, XF.neg, XF.add, XF.abs, XF.round, ← sub_eq_add_neg]

/-- A run of rings that join grows into one. -/
theorem mergeLoop_run (rnd : K → K) (s : RSys K) (tol : K) (f : ℕ → Seg K) (t : K) (inner : XF K)
    (rest : List (RingObj K)) (n : ℕ) (hjoin : ∀ i < n, |rnd ((f (i + 1)).a - (f i).b)| < tol)
    (ht : ∀ i ≤ n, (f i).t = t) :
    mergeLoop rnd s (.fin tol) inner (.fin (f 0).b) (.fin t)
      ((List.range n).map (fun i => ringOf s (f (i + 1))) ++ rest) =
    mergeLoop rnd s (.fin tol) inner (.fin (f n).b) (.fin t) rest := by
  induction n generalizing f with
  | zero => simp
  | succ n ih =>
    rw [List.range_succ_eq_map]
    simp only [List.map_cons, List.map_map, List.cons_append]
    rw [mergeLoop, if_pos ((merge_test rnd tol _ t s _).2 ⟨hjoin 0 (by omega), ht 1 (by omega)⟩)]
    exact ih (fun i => f (i + 1)) (fun i hi => hjoin (i + 1) (by omega))
      (fun i hi => ht (i + 1) (by omega))

/-- What merging makes of the parts of a list of rings. -/
def mergedSeg (rnd : K → K) (p : Seg K × ℕ) : Seg K :=
  ⟨rnd p.1.a, (roundedPart rnd p.1 p.2 (p.2 - 1)).b, p.1.t⟩

theorem mergedSeg_near {rnd : K → K} {u : K} (hu : Rounds rnd u) (hu0 : 0 ≤ u) (hu1 : u ≤ 1 / 100)
    {p : Seg K × ℕ} (hg : p.1.Ok) (hd : 1 ≤ p.2) : ComesBack rnd u p.1 (mergedSeg rnd p) := by
  obtain ⟨g, d⟩ := p
  obtain ⟨h1, h2, h3, h4⟩ := hg
  simp only at h1 h2 h3 h4 hd
  obtain ⟨-, h5, -, -⟩ := roundedPart_near hu hu0 hu1 h1 h2 (show d - 1 < d by omega)
  have hd' : (d : K) ≠ 0 := by
    have : (0 : K) < d := by exact_mod_cast hd
    exact this.ne'
  have e : g.a + (((d - 1 : ℕ) : K) + 1) * ((g.b - g.a) / d) = g.b := by
    rw [Nat.cast_sub hd]
    field_simp
    push_cast
    ring
  rw [e] at h5
  exact ⟨rfl, h5, rfl⟩

theorem mergedSeg_ok {rnd : K → K} {u : K} (hu : Rounds rnd u) (hu0 : 0 ≤ u) (hu1 : u ≤ 1 / 100)
    {p : Seg K × ℕ} (hg : p.1.Ok) (hd : 1 ≤ p.2) (hw : WideFor u p.1 p.2) : (mergedSeg rnd p).Ok := by
  obtain ⟨c1, c2, c3⟩ := mergedSeg_near hu hu0 hu1 hg hd
  obtain ⟨h1, h2, h3, h4⟩ := hg
  have hd' : (1 : K) ≤ p.2 := by exact_mod_cast hd
  have hw' : 12 * u * p.1.b < p.1.b - p.1.a := by
    refine lt_of_lt_of_le hw (div_le_self (by linarith) hd')
  have hab := mul_le_mul_of_nonneg_left h2.le hu0
  have hr := rounds_bounds hu h1.le
  have e8 : 8 * u * p.1.b = 8 * (u * p.1.b) := by ring
  have e12 : 12 * u * p.1.b = 12 * (u * p.1.b) := by ring
  have h0 : 0 ≤ u * p.1.b := mul_nonneg hu0 (by linarith)
  rw [abs_le, e8] at c2
  rw [e12] at hw'
  refine ⟨?_, ?_, by rw [c3]; exact h3, by rw [c3]; exact h4⟩
  · rw [c1]; exact rounds_pos hu hu1 h1
  · rw [c1]; linarith [c2.1]

/-- Consecutive computed parts are adjacent for `merge_rings`. -/
theorem roundedPart_join {rnd : K → K} {u : K} (hu : Rounds rnd u) (hu0 : 0 ≤ u) (hu1 : u ≤ 1 / 100)
    {g : Seg K} (hg : g.Ok) {d i : ℕ} (hi : i + 1 < d) {B tol : K} (hB : g.b ≤ B)
    (htol : 14 * u * B < tol) :
    |rnd ((roundedPart rnd g d (i + 1)).a - (roundedPart rnd g d i).b)| < tol := by
  obtain ⟨h1, h2, -, -⟩ := hg
  obtain ⟨-, h3, -, -⟩ := roundedPart_near hu hu0 hu1 h1 h2 (show i < d by omega)
  obtain ⟨h4, -, -, -⟩ := roundedPart_near hu hu0 hu1 h1 h2 hi
  push_cast at h4
  obtain ⟨x, hx⟩ : ∃ x, x = (roundedPart rnd g d i).b := ⟨_, rfl⟩
  obtain ⟨y, hy⟩ : ∃ y, y = (roundedPart rnd g d (i + 1)).a := ⟨_, rfl⟩
  rw [← hx] at h3 ⊢
  rw [← hy] at h4 ⊢
  have h5 : |y - x| ≤ 13 * (u * g.b) := by
    rw [abs_le] at *
    constructor <;> linarith [h3.1, h3.2, h4.1, h4.2]
  have h6 := hu (y - x)
  have h7 : |rnd (y - x)| ≤ |rnd (y - x) - (y - x)| + |y - x| := by
    have := abs_add_le (rnd (y - x) - (y - x)) (y - x)
    simpa using this
  have h8 : u * |y - x| ≤ 1 / 100 * |y - x| := mul_le_mul_of_nonneg_right hu1 (abs_nonneg _)
  have h9 := mul_le_mul_of_nonneg_left hB hu0
  have h10 : 14 * u * B = 14 * (u * B) := by ring
  have h11 : 0 ≤ u * g.b := mul_nonneg hu0 (by linarith)
  linarith

/-- Rings that are well apart are not joined after splitting. -/
theorem wellApart_test {rnd : K → K} {u : K} (hu : Rounds rnd u) (hu0 : 0 ≤ u) (hu1 : u ≤ 1 / 100)
    {p q : Seg K × ℕ} (hp : p.1.Ok) (hq : q.1.Ok) (hpd : 1 ≤ p.2) {B tol : K}
    (hpB : p.1.b ≤ B) (hqB : q.1.b ≤ B) (htol : 0 ≤ tol) (hap : WellApart u B tol p.1 q.1) :
    ¬ (|rnd (rnd q.1.a - (mergedSeg rnd p).b)| < tol ∧ q.1.t = p.1.t) := by
  rintro ⟨h1, h2⟩
  rcases hap with hap | hap
  · exact hap h2
  · obtain ⟨-, c2, -⟩ := mergedSeg_near hu hu0 hu1 hp hpd
    obtain ⟨x, hx⟩ : ∃ x, x = (mergedSeg rnd p).b := ⟨_, rfl⟩
    rw [← hx] at h1 c2
    have hr := rounds_bounds hu hq.1.le
    have hpu := mul_le_mul_of_nonneg_left hpB hu0
    have hqa : q.1.a ≤ B := hq.2.1.le.trans hqB
    have hqu := mul_le_mul_of_nonneg_left hqa hu0
    have e8 : 8 * u * p.1.b = 8 * (u * p.1.b) := by ring
    have e12 : 12 * u * B = 12 * (u * B) := by ring
    have hB0 : 0 < B := hq.1.trans_le hqa
    have huB : 0 ≤ u * B := mul_nonneg hu0 hB0.le
    have huB1 := mul_le_mul_of_nonneg_right hu1 hB0.le
    have hpp : 0 < p.1.b := hp.1.trans hp.2.1
    rw [abs_le, e8] at c2
    rw [e12] at hap
    have hz : tol + 3 * (u * B) ≤ rnd q.1.a - x := by linarith [c2.2, hr.1]
    have hx0 : -(8 / 100) * B ≤ x := by
      linarith [c2.1]
    have hz2 : rnd q.1.a - x ≤ 2 * B := by linarith [c2.1, hr.2]
    have hz0 : 0 ≤ rnd q.1.a - x := by linarith
    have hr2 := (rounds_bounds hu hz0).1
    have hu2 : u * (rnd q.1.a - x) ≤ u * (2 * B) := mul_le_mul_of_nonneg_left hz2 hu0
    have := le_abs_self (rnd (rnd q.1.a - x))
    linarith

theorem mergeLoop_rounded {rnd : K → K} {u : K} (hu : Rounds rnd u) (hu0 : 0 ≤ u)
    (hu1 : u ≤ 1 / 100) {s : RSys K} (hs : GoodGeometry s) {B tol : K} (htol : 14 * u * B < tol)
    (htol0 : 0 ≤ tol) (l : List (Seg K × ℕ)) (p : Seg K × ℕ)
    (hok : ∀ q ∈ p :: l, q.1.Ok ∧ q.1.b ≤ B ∧ 1 ≤ q.2 ∧ WideFor u q.1 q.2)
    (hap : (p :: l).IsChain (fun x y => WellApart u B tol x.1 y.1)) :
    mergeLoop rnd s (.fin tol) (.fin (mergedSeg rnd p).a) (.fin (mergedSeg rnd p).b)
      (.fin (mergedSeg rnd p).t) ((roundedSegs rnd l).map (ringOf s)) =
    .ok (((p :: l).map (mergedSeg rnd)).map (ringOf s)) := by
  induction l generalizing p with
  | nil =>
    obtain ⟨h1, -, h3, h4⟩ := hok p (by simp)
    simp [roundedSegs, mergeLoop, newRing_ringOf hs (mergedSeg_ok hu hu0 hu1 h1 h3 h4), bind,
      Except.bind]
  | cons q l ih =>
    obtain ⟨p1, p2, p3, p4⟩ := hok p (by simp)
    obtain ⟨q1, q2, q3, q4⟩ := hok q (by simp)
    rw [List.isChain_cons_cons] at hap
    obtain ⟨n, hn⟩ : ∃ n, q.2 = n + 1 := ⟨q.2 - 1, by omega⟩
    have e : (roundedSegs rnd (q :: l)).map (ringOf s) =
        ringOf s (roundedPart rnd q.1 q.2 0) ::
          ((List.range n).map (fun i => ringOf s (roundedPart rnd q.1 q.2 (i + 1))) ++
            (roundedSegs rnd l).map (ringOf s)) := by
      simp [roundedSegs, hn, List.range_succ_eq_map, Function.comp_def]
    rw [e, mergeLoop, if_neg]
    · rw [newRing_ringOf hs (mergedSeg_ok hu hu0 hu1 p1 p3 p4)]
      have hrun := mergeLoop_run rnd s tol (roundedPart rnd q.1 q.2) q.1.t
        (.fin (roundedPart rnd q.1 q.2 0).a) ((roundedSegs rnd l).map (ringOf s)) n
        (fun i hi => roundedPart_join hu hu0 hu1 q1 (by omega) q2 htol) (fun i _ => rfl)
      have ih' := ih q (fun x hx => hok x (by simp [hx])) hap.2
      have hb : (mergedSeg rnd q).b = (roundedPart rnd q.1 q.2 n).b := by simp [mergedSeg, hn]
      have ha : (mergedSeg rnd q).a = (roundedPart rnd q.1 q.2 0).a :=
        (roundedPart_first hu q.1 q.2).symm
      have ht : (mergedSeg rnd q).t = q.1.t := rfl
      rw [ha, hb, ht] at ih'
      have e2 : ∀ x : RingObj K → Except Err (List (RingObj K)),
          (Except.ok (ringOf s (mergedSeg rnd p)) >>= x) = x (ringOf s (mergedSeg rnd p)) :=
        fun _ => rfl
      rw [e2]
      have e3 : mergeLoop rnd s (.fin tol) (ringOf s (roundedPart rnd q.1 q.2 0)).inner
          (ringOf s (roundedPart rnd q.1 q.2 0)).outer
          (ringOf s (roundedPart rnd q.1 q.2 0)).transmission
          ((List.range n).map (fun i => ringOf s (roundedPart rnd q.1 q.2 (i + 1))) ++
            (roundedSegs rnd l).map (ringOf s)) =
          .ok (((q :: l).map (mergedSeg rnd)).map (ringOf s)) := hrun.trans ih'
      rw [e3]
      rfl
    · rw [merge_test]
      have := wellApart_test hu hu0 hu1 p1 q1 p3 p2 q2 htol0 hap.1
      rw [roundedPart_first hu]
      exact this

/-- Merging depends on the geometry of the system alone. -/
theorem mergeLoop_congr (rnd : K → K) {s s' : RSys K} {tol inner outer t : XF K}
    {rs : List (RingObj K)} (h1 : s.inclination = s'.inclination) (h2 : s.tilt = s'.tilt) :
    mergeLoop rnd s tol inner outer t rs = mergeLoop rnd s' tol inner outer t rs := by
  induction rs generalizing inner outer t with
  | nil => simp only [mergeLoop, h1, h2]
  | cons r rs ih =>
    rw [mergeLoop, mergeLoop, ih, ih, h1, h2]

/-! ## The claims -/

/-- **C86** In rounded arithmetic (relative error at most `u ≤ 1/100`) `split_rings` succeeds if every
ring is wide enough for its divisions: it makes as many rings as asked for. -/
theorem C86_split [FloorRing K] (rnd : K → K) (u : K) (hu : Rounds rnd u) (hu0 : 0 ≤ u)
    (hu1 : u ≤ 1 / 100) (s : RSys K) (hs : GoodGeometry s) (segs : List (Seg K))
    (h : HasSegs s.rings segs) (hok : ∀ g ∈ segs, g.Ok) (nd : PyVal K) (ds : List ℕ)
    (hask : Asks s.rings.length nd ds) (hw : ∀ p ∈ segs.zip ds, WideFor u p.1 p.2) :
    ∃ out : List (Seg K), splitRings rnd nd s = (.ok (), { s with rings := out.map (ringOf s) }) ∧
      out.length = ds.sum ∧ ∀ g ∈ out, g.Ok := by
  obtain ⟨hlen, hd⟩ := asks_pos hask
  rw [hasSegs_length h] at hlen
  refine ⟨roundedSegs rnd (segs.zip ds), ?_, ?_, ?_⟩
  · unfold splitRings
    simp only [Meth.get_bind, asks_divisions hask, Meth.lift_ok_bind,
      splitLoop_rounded hu hu0 hu1 hs s.rings segs ds h hok hw, Meth.modify_apply]
  · have e : (segs.zip ds).map (fun p => p.2) = ds := List.map_snd_zip (by omega)
    simp only [roundedSegs, List.length_flatMap, List.length_map, List.length_range]
    rw [e]
  · intro g hg
    simp only [roundedSegs, List.mem_flatMap, List.mem_map, List.mem_range] at hg
    obtain ⟨p, hp, i, hi, rfl⟩ := hg
    exact roundedPart_ok hu hu0 hu1 (hok _ (List.of_mem_zip hp).1) hi (hw p hp)

/-- **C86 (partial)** In rounded arithmetic `merge_rings` undoes `split_rings` up to rounding: the
same number of rings come back, with the same transmissions, the inner radii rounded and the outer
radii off by at most `8 u` times themselves, if the rings are wide enough for their divisions, the
tolerance is larger than the errors, and neighbours that are not to be joined are well apart.  Missing
for the full claim: that the very same radii come back, which is false (`C86_false_exact`). -/
theorem C86_merge_back_partial [FloorRing K] (rnd : K → K) (u : K) (hu : Rounds rnd u) (hu0 : 0 ≤ u)
    (hu1 : u ≤ 1 / 100) (s : RSys K) (hs : GoodGeometry s) (segs : List (Seg K))
    (h : HasSegs s.rings segs) (hne : segs ≠ []) (B tol : K) (hok : ∀ g ∈ segs, g.Ok ∧ g.b ≤ B)
    (htol : 14 * u * B < tol) (hap : segs.IsChain (WellApart u B tol)) (nd : PyVal K) (ds : List ℕ)
    (hask : Asks s.rings.length nd ds) (hw : ∀ p ∈ segs.zip ds, WideFor u p.1 p.2) :
    (splitRings rnd nd s).1 = .ok () ∧
    ∃ out : List (Seg K), mergeRings rnd (.fin tol) (splitRings rnd nd s).2 =
        (.ok (), { s with rings := out.map (ringOf s) }) ∧
      List.Forall₂ (ComesBack rnd u) segs out := by
  obtain ⟨hlen, hd⟩ := asks_pos hask
  rw [hasSegs_length h] at hlen
  have e : splitRings rnd nd s =
      (.ok (), { s with rings := (roundedSegs rnd (segs.zip ds)).map (ringOf s) }) := by
    unfold splitRings
    simp only [Meth.get_bind, asks_divisions hask, Meth.lift_ok_bind,
      splitLoop_rounded hu hu0 hu1 hs s.rings segs ds h (fun g hg => (hok g hg).1) hw,
      Meth.modify_apply]
  rw [e]
  refine ⟨rfl, (segs.zip ds).map (mergedSeg rnd), ?_, ?_⟩
  · have hz : (segs.zip ds).map Prod.fst = segs := List.map_fst_zip (by omega)
    have hall : ∀ q ∈ segs.zip ds, q.1.Ok ∧ q.1.b ≤ B ∧ 1 ≤ q.2 ∧ WideFor u q.1 q.2 := fun q hq =>
      ⟨(hok _ (List.of_mem_zip hq).1).1, (hok _ (List.of_mem_zip hq).1).2,
        hd _ (List.of_mem_zip hq).2, hw q hq⟩
    have hap' : (segs.zip ds).IsChain (fun x y => WellApart u B tol x.1 y.1) := by
      rw [← hz] at hap
      rwa [List.isChain_map] at hap
    cases hl : segs.zip ds with
    | nil => rw [hl] at hz; exact absurd hz.symm hne
    | cons q l =>
      rw [hl] at hall hap'
      obtain ⟨q1, q2, q3, q4⟩ := hall q (by simp)
      have hB0 : 0 < B := (q1.1.trans q1.2.1).trans_le q2
      have htol0 : 0 < tol := lt_of_le_of_lt (by positivity) htol
      have main := mergeLoop_rounded hu hu0 hu1 hs htol htol0.le l q hall hap'
      obtain ⟨n, hn⟩ : ∃ n, q.2 = n + 1 := ⟨q.2 - 1, by omega⟩
      have e2 : (roundedSegs rnd (q :: l)).map (ringOf s) =
          ringOf s (roundedPart rnd q.1 q.2 0) ::
            ((List.range n).map (fun i => ringOf s (roundedPart rnd q.1 q.2 (i + 1))) ++
              (roundedSegs rnd l).map (ringOf s)) := by
        simp [roundedSegs, hn, List.range_succ_eq_map, Function.comp_def]
      have hrun := mergeLoop_run rnd s tol (roundedPart rnd q.1 q.2) q.1.t
        (.fin (roundedPart rnd q.1 q.2 0).a) ((roundedSegs rnd l).map (ringOf s)) n
        (fun i hi => roundedPart_join hu hu0 hu1 q1 (by omega) q2 htol) (fun i _ => rfl)
      have hb : (mergedSeg rnd q).b = (roundedPart rnd q.1 q.2 n).b := by simp [mergedSeg, hn]
      have ha : (mergedSeg rnd q).a = (roundedPart rnd q.1 q.2 0).a :=
        (roundedPart_first hu q.1 q.2).symm
      have ht : (mergedSeg rnd q).t = q.1.t := rfl
      rw [ha, hb, ht] at main
      have r0 : rnd 0 = 0 := by
        have := hu 0
        simpa using this
      have hloop : mergeLoop rnd { s with rings := (roundedSegs rnd (q :: l)).map (ringOf s) }
          (.fin tol) (.fin (roundedPart rnd q.1 q.2 0).a) (.fin (roundedPart rnd q.1 q.2 0).a)
          (.fin q.1.t) ((roundedSegs rnd (q :: l)).map (ringOf s)) =
          .ok (((q :: l).map (mergedSeg rnd)).map (ringOf s)) := by
        refine (mergeLoop_congr rnd
          (s := { s with rings := (roundedSegs rnd (q :: l)).map (ringOf s) }) (s' := s) rfl
          rfl).trans ?_
        rw [e2, mergeLoop, if_pos
          ((merge_test rnd tol _ q.1.t s (roundedPart rnd q.1 q.2 0)).2 ⟨by simpa [r0] using htol0, rfl⟩)]
        exact hrun.trans main
      unfold mergeRings
      rw [e2] at hloop ⊢
      simp only [Meth.get_bind, Meth.lift_ok_bind]
      have e4 : (ringOf s (roundedPart rnd q.1 q.2 0)).inner =
        .fin (roundedPart rnd q.1 q.2 0).a := rfl
      have e5 : (ringOf s (roundedPart rnd q.1 q.2 0)).transmission = .fin q.1.t := rfl
      rw [e4, e5, hloop]
      simp only [Meth.lift_ok_bind, Meth.modify_apply]
  · rw [List.forall₂_iff_get]
    refine ⟨by simp; omega, ?_⟩
    intro i h1 h2
    have hi : i < (segs.zip ds).length := by simpa using h2
    have hm : (segs.zip ds)[i] ∈ segs.zip ds := List.getElem_mem hi
    have := mergedSeg_near hu hu0 hu1 (hok _ (List.of_mem_zip hm).1).1
      (hd _ (List.of_mem_zip hm).2)
    simpa using this

/-- **C86** In binary64 (exponent range aside), with the default tolerance `1e-6` and radii up to
`10^7`: splitting and merging gives back as many rings, with the very same inner radii and
transmissions, and outer radii within `10^-15` of themselves. -/
theorem C86_merge_back_in_double (s : RSys ℚ) (hs : GoodGeometry s) (segs : List (Seg ℚ))
    (h : HasSegs s.rings segs) (hne : segs ≠ []) (hok : ∀ g ∈ segs, g.Ok ∧ g.b ≤ 10 ^ 7)
    (hrep : ∀ g ∈ segs, toDouble g.a = g.a)
    (hap : segs.IsChain fun x y => y.t ≠ x.t ∨ 2 / 10 ^ 6 ≤ y.a - x.b) (nd : PyVal ℚ) (ds : List ℕ)
    (hask : Asks s.rings.length nd ds)
    (hw : ∀ p ∈ segs.zip ds, p.1.b / 10 ^ 14 < (p.1.b - p.1.a) / (p.2 : ℚ)) :
    (splitRings toDouble nd s).1 = .ok () ∧
    ∃ out : List (Seg ℚ), mergeRings toDouble (.fin (1 / 10 ^ 6)) (splitRings toDouble nd s).2 =
        (.ok (), { s with rings := out.map (ringOf s) }) ∧
      List.Forall₂ (fun g g' => g'.a = g.a ∧ |g'.b - g.b| ≤ g.b / 10 ^ 15 ∧ g'.t = g.t) segs out := by
  obtain ⟨h1, out, h2, h3⟩ := C86_merge_back_partial toDouble (1 / 2 ^ 53) toDouble_error
    (by norm_num) (by norm_num) s hs segs h hne (10 ^ 7) (1 / 10 ^ 6) hok (by norm_num)
    (hap.imp fun x y hxy => hxy.imp id fun h => le_trans (by norm_num) h) nd ds hask
    (fun p hp => lt_of_le_of_lt (by
      have := (hok _ (List.of_mem_zip hp).1).1
      have hb : 0 < p.1.b := this.1.trans this.2.1
      linarith) (hw p hp))
  refine ⟨h1, out, h2, ?_⟩
  rw [List.forall₂_iff_get] at h3 ⊢
  refine ⟨h3.1, fun i hi hi' => ?_⟩
  obtain ⟨c1, c2, c3⟩ := h3.2 i hi hi'
  have hm : segs.get ⟨i, hi⟩ ∈ segs := List.get_mem _ _
  have hg := (hok _ hm).1
  have hb : 0 < (segs.get ⟨i, hi⟩).b := hg.1.trans hg.2.1
  exact ⟨by rw [c1, hrep _ hm], c2.trans (by linarith), c3⟩

/-- The hypotheses are met: two rings of equal transmission with a gap between them and one of
another transmission right after it, split into 3, 1 and 4. -/
example : let segs : List (Seg ℚ) := [⟨1, 2, 1 / 2⟩, ⟨5 / 2, 3, 1 / 2⟩, ⟨3, 10, 0⟩]
    let s : RSys ℚ := ⟨.fin 1, .fin 30, .fin 10, segs.map (ringOf ⟨.fin 1, .fin 30, .fin 10, []⟩)⟩
    let nd : PyVal ℚ := .arr ⟨"int64", [3], [3, 1, 4].map fun d : ℕ => .fin (d : ℚ)⟩
    GoodGeometry s ∧ HasSegs s.rings segs ∧ (∀ g ∈ segs, g.Ok ∧ g.b ≤ 10 ^ 7) ∧
    (∀ g ∈ segs, toDouble g.a = g.a) ∧
    (segs.IsChain fun x y => y.t ≠ x.t ∨ 2 / 10 ^ 6 ≤ y.a - x.b) ∧ Asks s.rings.length nd [3, 1, 4] ∧
    ∀ p ∈ segs.zip [3, 1, 4], p.1.b / 10 ^ 14 < (p.1.b - p.1.a) / (p.2 : ℚ) := by
  refine ⟨⟨30, 10, rfl, rfl, by norm_num⟩, rfl, ?_, ?_, ?_, ?_, ?_⟩
  · intro g hg
    simp only [List.mem_cons, List.not_mem_nil, or_false] at hg
    rcases hg with rfl | rfl | rfl <;> norm_num [Seg.Ok]
  · intro g hg
    simp only [List.mem_cons, List.not_mem_nil, or_false] at hg
    rcases hg with rfl | rfl | rfl <;> decide +kernel
  · norm_num
  · exact .arr [3, 1, 4] (by simp) rfl
  · intro p hp
    simp only [List.zip_cons_cons, List.zip_nil_right, List.mem_cons, List.not_mem_nil,
      or_false] at hp
    rcases hp with rfl | rfl | rfl <;> norm_num

/-- **C86 is false**: in binary64, splitting the ring from 1 to 2 into 3 and merging again gives one
ring, but its outer radius is less than 2. -/
theorem C86_false_exact : ∃ (s : RSys ℚ) (x : RingObj ℚ),
    s.rings = [⟨.fin 1, .fin 2, .fin 0, .fin 0, .fin 0⟩] ∧
    (splitRings toDouble (.int 3) s).1 = .ok () ∧
    (mergeRings toDouble (.fin (1 / 10 ^ 6)) (splitRings toDouble (.int 3) s).2).1 = .ok () ∧
    (mergeRings toDouble (.fin (1 / 10 ^ 6)) (splitRings toDouble (.int 3) s).2).2.rings = [x] ∧
    x.inner = .fin 1 ∧ Less x.outer (.fin 2) := by
  refine ⟨⟨.fin 1, .fin 0, .fin 0, [⟨.fin 1, .fin 2, .fin 0, .fin 0, .fin 0⟩]⟩,
    ⟨.fin 1, .fin (2 - 1 / 2 ^ 52), .fin 0, .fin 0, .fin 0⟩, rfl, ?_, ?_, ?_, rfl, ?_⟩
  · decide +kernel
  · decide +kernel
  · decide +kernel
  · rw [less_iff]; decide +kernel

/-- **C86 is false** for thin rings: in binary64 the ring from 1 to the next number cannot be split
into 2 (and is left as it was). -/
theorem C86_false_thin : ∃ s : RSys ℚ,
    s.rings = [⟨.fin 1, .fin (1 + 1 / 2 ^ 52), .fin 0, .fin 0, .fin 0⟩] ∧ GoodGeometry s ∧
    splitRings toDouble (.int 2) s = (.error .valueError, s) := by
  refine ⟨⟨.fin 1, .fin 0, .fin 0, [⟨.fin 1, .fin (1 + 1 / 2 ^ 52), .fin 0, .fin 0, .fin 0⟩]⟩, rfl,
    ⟨0, 0, rfl, rfl, by norm_num⟩, ?_⟩
  decide +kernel

/-- **C86 is false** for large radii: in binary64 the ring from `2^33` to `2^34`, split into 5 and
merged again with the default tolerance, does not become one ring. -/
theorem C86_false_large : ∃ s : RSys ℚ,
    s.rings = [⟨.fin (2 ^ 33), .fin (2 ^ 34), .fin 0, .fin 0, .fin 0⟩] ∧ GoodGeometry s ∧
    (splitRings toDouble (.int 5) s).1 = .ok () ∧
    (mergeRings toDouble (.fin (1 / 10 ^ 6)) (splitRings toDouble (.int 5) s).2).1 = .ok () ∧
    (mergeRings toDouble (.fin (1 / 10 ^ 6)) (splitRings toDouble (.int 5) s).2).2.rings.length
      = 2 := by
  refine ⟨⟨.fin 1, .fin 0, .fin 0, [⟨.fin (2 ^ 33), .fin (2 ^ 34), .fin 0, .fin 0, .fin 0⟩]⟩, rfl,
    ⟨0, 0, rfl, rfl, by norm_num⟩, ?_, ?_, ?_⟩ <;> decide +kernel

end Beyonce
