import Verif.Double
import Verif.Props.RingHeap

/-!
# Property C15: `split_rings` and `merge_rings` in rounded arithmetic
-/

set_option linter.unusedSectionVars false

namespace Beyonce
open Spec
variable {K : Type} [Field K] [LinearOrder K]

/-- `rnd` rounds with relative error at most `u`. -/
def Spec.Rounds (rnd : K → K) (u : K) : Prop := ∀ x, |rnd x - x| ≤ u * |x|

variable [IsStrictOrderedRing K]

/-- A ringlet that was made has the computed radii. -/
theorem ringlet_fields {rnd : K → K} {s : RSys K} {r r' : RingObj K} {d i : ℕ} {a b : K}
    (ha : r.inner = .fin a) (hb : r.outer = .fin b) (hd : 1 ≤ d)
    (h : ringlet rnd s r d i = .ok r')
    (h0 : rnd (a + rnd (i * rnd (rnd (b - a) / d))) ≠ 0) :
    r'.inner = .fin (rnd (a + rnd (i * rnd (rnd (b - a) / d)))) ∧
    r'.outer = .fin (rnd (rnd (a + rnd (i * rnd (rnd (b - a) / d))) + rnd (rnd (b - a) / d))) := by
  have hd' : (d : K) ≠ 0 := by
    have : (0 : K) < d := by exact_mod_cast hd
    exact this.ne'
  unfold ringlet at h
  simp only [ha, hb, XF.sub, XF.neg, XF.add, XF.div, hd', if_false, XF.mul, XF.round,
    ← sub_eq_add_neg] at h
  refine ⟨?_, ?_⟩
  · unfold newRing at h
    cases h1 : checkInner .pinf (.float (.fin (rnd (a + rnd (i * rnd (rnd (b - a) / d)))))) with
    | error e => simp only [bind, Except.bind, h1] at h; cases h
    | ok x1 =>
    rw [checkInner_fin _ _ h0] at h1
    split_ifs at h1
    · simp only [Except.ok.injEq] at h1
      subst h1
      revert h
      rw [checkInner_fin _ _ h0, if_pos (by assumption)]
      simp only [bind, Except.bind]
      generalize checkOuter (K := K) _ _ = c1
      generalize checkTransmission (K := K) _ = c2
      generalize checkInclination (K := K) _ = c3
      generalize checkTilt (K := K) _ = c4
      cases c1 <;> cases c2 <;> cases c3 <;> cases c4 <;> simp
      rintro rfl
      rfl
  · have := (newRing_fields h).1
    simpa using this

theorem rounds_bounds {rnd : K → K} {u x : K} (h : Rounds rnd u) (hx : 0 ≤ x) :
    x - u * x ≤ rnd x ∧ rnd x ≤ x + u * x := by
  have := h x
  rw [abs_of_nonneg hx, abs_le] at this
  constructor <;> linarith [this.1, this.2]

theorem rounds_nonneg {rnd : K → K} {u x : K} (h : Rounds rnd u) (hu : u ≤ 1 / 100) (hx : 0 ≤ x) :
    0 ≤ rnd x := by
  have h1 := (rounds_bounds h hx).1
  have h2 : u * x ≤ 1 / 100 * x := mul_le_mul_of_nonneg_right hu hx
  linarith

theorem rounds_pos {rnd : K → K} {u x : K} (h : Rounds rnd u) (hu : u ≤ 1 / 100) (hx : 0 < x) :
    0 < rnd x := by
  have h1 := (rounds_bounds h hx.le).1
  have h2 : u * x ≤ 1 / 100 * x := mul_le_mul_of_nonneg_right hu hx.le
  linarith

/-- **C15 (partial)** Whatever the rounding (with relative error at most `u ≤ 1/100`), the facing
edges of two consecutive ringlets differ by at most `6 u` times the outer radius.  Missing for the
full claim: that they do not overlap, which is false (`C15_false`). -/
theorem C15_gap_partial (rnd : K → K) (u : K) (hu : Rounds rnd u) (hu0 : 0 ≤ u) (hu1 : u ≤ 1 / 100)
    (s : RSys K) (r r1 r2 : RingObj K) (a b : K) (ha : r.inner = .fin a) (hb : r.outer = .fin b)
    (h0 : 0 < a) (hab : a < b) (d i : ℕ) (hi : i + 1 < d)
    (h1 : ringlet rnd s r d i = .ok r1) (h2 : ringlet rnd s r d (i + 1) = .ok r2) :
    ∃ x y, r1.outer = .fin x ∧ r2.inner = .fin y ∧ |y - x| ≤ 6 * u * b := by
  have hd : 1 ≤ d := by omega
  have hd' : (0 : K) < d := by exact_mod_cast hd
  have hi' : (i : K) + 1 ≤ d := by exact_mod_cast hi.le
  have hi0 : (0 : K) ≤ i := by positivity
  -- the computed width
  obtain ⟨w1, w2⟩ := rounds_bounds hu (sub_pos.2 hab).le
  set w := rnd (b - a) with hw
  have hw0 : 0 ≤ w := rounds_nonneg hu hu1 (sub_pos.2 hab).le
  have hwd : 0 ≤ w / d := by positivity
  obtain ⟨e1, e2⟩ := rounds_bounds hu hwd
  set δ := rnd (w / d) with hδ
  have hδ0 : 0 ≤ δ := rounds_nonneg hu hu1 hwd
  have hsc : ∀ t : K, 0 ≤ t → t ≤ d → t * δ ≤ (b - a) * (1 + u) ^ 2 := by
    intro t ht ht'
    have h3 : t * δ ≤ d * (w / d + u * (w / d)) := by
      calc t * δ ≤ d * δ := mul_le_mul_of_nonneg_right ht' hδ0
        _ ≤ _ := mul_le_mul_of_nonneg_left e2 hd'.le
    have h4 : d * (w / d + u * (w / d)) = w * (1 + u) := by field_simp
    rw [h4] at h3
    have h5 : w * (1 + u) ≤ ((b - a) + u * (b - a)) * (1 + u) :=
      mul_le_mul_of_nonneg_right w2 (by linarith)
    calc _ ≤ _ := h3
      _ ≤ _ := h5
      _ = _ := by ring
  -- the products
  have p0 : 0 ≤ (i : K) * δ := by positivity
  have p1 : 0 ≤ ((i : K) + 1) * δ := by positivity
  have q0 := hsc i hi0 (by linarith)
  have q1 := hsc (i + 1) (by linarith) hi'
  obtain ⟨m1, m2⟩ := rounds_bounds hu p0
  obtain ⟨n1, n2⟩ := rounds_bounds hu p1
  set M := rnd ((i : K) * δ) with hM
  set N := rnd (((i : K) + 1) * δ) with hN
  have hM0 : 0 ≤ M := rounds_nonneg hu hu1 p0
  have hN0 : 0 ≤ N := rounds_nonneg hu hu1 p1
  obtain ⟨k1, k2⟩ := rounds_bounds hu (show 0 ≤ a + M by linarith)
  obtain ⟨l1, l2⟩ := rounds_bounds hu (show 0 ≤ a + N by linarith)
  set I := rnd (a + M) with hI
  set J := rnd (a + N) with hJ
  have hI0 : 0 < I := rounds_pos hu hu1 (by linarith)
  have hJ0 : 0 < J := rounds_pos hu hu1 (by linarith)
  obtain ⟨o1, o2⟩ := rounds_bounds hu (show 0 ≤ I + δ by linarith)
  have f1 := ringlet_fields ha hb hd h1 (by rw [← hw, ← hδ, ← hM, ← hI]; exact hI0.ne')
  have hcast : ((i + 1 : ℕ) : K) = (i : K) + 1 := by push_cast; ring
  have f2 := ringlet_fields ha hb hd h2 (by rw [hcast, ← hw, ← hδ, ← hN, ← hJ]; exact hJ0.ne')
  refine ⟨_, _, f1.2, f2.1, ?_⟩
  rw [hcast, ← hw, ← hδ, ← hN, ← hJ, ← hM, ← hI]
  set O := rnd (I + δ) with hO
  -- all intermediate values are at most b (1+u)^4
  have hB : (b - a) * (1 + u) ^ 2 ≤ (b - a) * (1 + 201 / 100 * u) := by
    apply mul_le_mul_of_nonneg_left _ (sub_pos.2 hab).le
    have : u * u ≤ 1 / 100 * u := mul_le_mul_of_nonneg_right hu1 hu0
    linarith
  have c1 : a + (i : K) * δ + δ ≤ b * (1 + 201 / 100 * u) := by
    have hua : 0 ≤ u * a := mul_nonneg hu0 h0.le
    linarith
  have hub : 0 ≤ u * b := mul_nonneg hu0 (by linarith)
  have huu : u * (u * b) ≤ 1 / 100 * (u * b) := mul_le_mul_of_nonneg_right hu1 hub
  have S : a + (i : K) * δ + δ = a + ((i : K) + 1) * δ := by ring
  have g1 : ((i : K) + 1) * δ ≤ b * (1 + 201 / 100 * u) := by linarith
  have g0 : (i : K) * δ ≤ b * (1 + 201 / 100 * u) := by linarith
  have hstep : (i : K) * δ + δ = ((i : K) + 1) * δ := by ring
  have ux : ∀ x, 0 ≤ x → x ≤ b * (1 + 201/100 * u) → u * x ≤ 103 / 100 * (u * b) := by
    intro x hx hx'
    calc u * x ≤ u * (b * (1 + 201/100 * u)) := mul_le_mul_of_nonneg_left hx' hu0
      _ = u * b + 201 / 100 * (u * (u * b)) := by ring
      _ ≤ _ := by linarith
  have t0 := ux _ p0 g0
  have t1 := ux _ p1 g1
  have ux' : ∀ x, 0 ≤ x → x ≤ b * (1 + 201/100 * u) + 4 * (u * b) → u * x ≤ 108 / 100 * (u * b) := by
    intro x hx hx'
    calc u * x ≤ u * (b * (1 + 201/100 * u) + 4 * (u * b)) := mul_le_mul_of_nonneg_left hx' hu0
      _ = u * b + 601 / 100 * (u * (u * b)) := by ring
      _ ≤ _ := by linarith
  have t2 := ux' (a + M) (by linarith) (by linarith)
  have t3 := ux' (a + N) (by linarith) (by linarith)
  have t4 := ux' (I + δ) (by linarith) (by linarith)
  rw [abs_le]
  constructor <;> linarith

/-- **C15** In binary64 (exponent range aside) `merge_rings` with its default tolerance `1e-6`
takes the facing edges of consecutive ringlets for adjacent, for every ring with an outer radius
up to `10^8`. -/
theorem C15_ringlets_adjacent_in_double (s : RSys ℚ) (r r1 r2 : RingObj ℚ) (a b : ℚ)
    (ha : r.inner = .fin a) (hb : r.outer = .fin b) (h0 : 0 < a) (hab : a < b) (hb8 : b ≤ 10 ^ 8)
    (d i : ℕ) (hi : i + 1 < d)
    (h1 : ringlet toDouble s r d i = .ok r1) (h2 : ringlet toDouble s r d (i + 1) = .ok r2) :
    XF.lt ((r2.inner.sub r1.outer).round toDouble).abs (.fin (1 / 10 ^ 6)) = true := by
  have hu : Rounds toDouble (1 / 2 ^ 53) := toDouble_error
  obtain ⟨x, y, hx, hy, hxy⟩ := C15_gap_partial toDouble (1 / 2 ^ 53) hu (by norm_num) (by norm_num)
    s r r1 r2 a b ha hb h0 hab d i hi h1 h2
  rw [hx, hy]
  simp only [XF.sub, XF.neg, XF.add, XF.round, XF.abs, XF.lt_fin, decide_eq_true_eq,
    ← sub_eq_add_neg]
  have h3 := hu (y - x)
  have h4 : |toDouble (y - x)| ≤ |toDouble (y - x) - (y - x)| + |y - x| := by
    have := abs_add_le (toDouble (y - x) - (y - x)) (y - x)
    simpa using this
  have h5 : (6 : ℚ) * (1 / 2 ^ 53) * b ≤ 6 * (1 / 2 ^ 53) * 10 ^ 8 := by
    apply mul_le_mul_of_nonneg_left hb8; norm_num
  have h6 : |y - x| ≤ 6 * (1 / 2 ^ 53) * 10 ^ 8 := hxy.trans h5
  norm_num at h3 h6 ⊢
  linarith

/-- The hypotheses are met: ringlets 1 and 2 of 6 of the ring from 1 to 2 are made. -/
example : let s : RSys ℚ := ⟨.fin 1, .fin 0, .fin 0, []⟩
    let r : RingObj ℚ := ⟨.fin 1, .fin 2, .fin 0, .fin 0, .fin 0⟩
    ((ringlet toDouble s r 6 1).isOk && (ringlet toDouble s r 6 2).isOk) = true := by
  decide +kernel

/-- **C15 is false**: in binary64, splitting the ring from 1 to 2 into 6 ringlets makes ringlet 2
begin before ringlet 1 ends. -/
theorem C15_false : ∃ (s : RSys ℚ) (x y : RingObj ℚ),
    s.rings = [⟨.fin 1, .fin 2, .fin 0, .fin 0, .fin 0⟩] ∧
    (splitRings toDouble (.int 6) s).1 = .ok () ∧
    (splitRings toDouble (.int 6) s).2.rings[1]? = some x ∧
    (splitRings toDouble (.int 6) s).2.rings[2]? = some y ∧
    Less y.inner x.outer := by
  let s : RSys ℚ := ⟨.fin 1, .fin 0, .fin 0, [⟨.fin 1, .fin 2, .fin 0, .fin 0, .fin 0⟩]⟩
  have e : ((splitRings toDouble (.int 6) s).1 = .ok ()) ∧
      ((splitRings toDouble (.int 6) s).2.rings[1]?.bind fun x =>
        (splitRings toDouble (.int 6) s).2.rings[2]?.map fun y => XF.lt y.inner x.outer) = some true := by
    decide +kernel
  cases h1 : (splitRings toDouble (.int 6) s).2.rings[1]? with
  | none => rw [h1] at e; simp at e
  | some x =>
    cases h2 : (splitRings toDouble (.int 6) s).2.rings[2]? with
    | none => rw [h1, h2] at e; simp at e
    | some y =>
      rw [h1, h2] at e
      exact ⟨s, x, y, rfl, e.1, h1, h2, by rw [less_iff]; simpa using e.2⟩

end Beyonce
