import Verif.FitRounded
import Verif.Props.GradientRounded
import Verif.Props.Solved
import Verif.Props.AddGradients

/-!
# Property C110: the gradient fit in floating point
-/

set_option linter.unusedSectionVars false

namespace Beyonce
open Spec

section
variable {K : Type} [Field K] [LinearOrder K] [RealFns K]

theorem fitTerm_exact (w : Bool) (p : FitPart K) :
    FitRounded.term .exact w p =
      Shallot.fitTerm (if w then p.error.mul p.error else .fin 1) p.scaled p.gradient := by
  unfold FitRounded.term FitRounded.weight Shallot.fitTerm
  simp only [FloatLib.sub, FloatLib.mul, FloatLib.sq, FloatLib.div]
  simp only [FloatLib.exact, round_same]

theorem fitAt_exact (w : Bool) (ps : List (FitPart K)) :
    FitRounded.fitAt .exact w ps = (ps.map fun p => Shallot.fitTerm (if w then p.error.mul p.error else .fin 1)
      p.scaled p.gradient).foldl XF.add (.fin 0) := by
  unfold FitRounded.fitAt
  rw [List.foldl_map]
  congr 1
  funext a p
  rw [fitTerm_exact]
  simp only [FloatLib.add]
  simp only [FloatLib.exact, round_same]

end

section
variable {K : Type} [Field K] [LinearOrder K] [IsStrictOrderedRing K]

/-- Equal up to `k` roundings. -/
def Spec.UpTo (u : K) (k : ℕ) (x' x : K) : Prop := x * (1 - u) ^ k ≤ x' ∧ x' * (1 - u) ^ k ≤ x

variable {u : K} {j k : ℕ} {x x' y y' : K}

theorem Spec.UpTo.refl (x : K) : UpTo u 0 x x := by simp [UpTo]

theorem Spec.UpTo.nonneg (hu1 : u < 1) (hx : 0 ≤ x) (h : UpTo u k x' x) : 0 ≤ x' :=
  (mul_nonneg hx (pow_nonneg (by linarith) _)).trans h.1

theorem Spec.UpTo.symm (h : UpTo u k x' x) : UpTo u k x x' := ⟨h.2, h.1⟩

theorem Spec.UpTo.mono (hu : 0 ≤ u) (hu1 : u < 1) (hx : 0 ≤ x) (h : UpTo u k x' x) (hk : k ≤ j) :
    UpTo u j x' x := by
  have hp : (1 - u) ^ j ≤ (1 - u) ^ k := pow_le_pow_of_le_one (by linarith) (by linarith) hk
  exact ⟨(mul_le_mul_of_nonneg_left hp hx).trans h.1, (mul_le_mul_of_nonneg_left hp (h.nonneg hu1 hx)).trans h.2⟩

theorem Spec.UpTo.trans (hu1 : u < 1) (h : UpTo u j y' y) (h' : UpTo u k y x) : UpTo u (j + k) y' x := by
  have hj : 0 ≤ (1 - u) ^ j := pow_nonneg (by linarith) _
  have hk : 0 ≤ (1 - u) ^ k := pow_nonneg (by linarith) _
  constructor
  · have := mul_le_mul_of_nonneg_right h'.1 hj
    rw [pow_add]
    calc x * ((1 - u) ^ j * (1 - u) ^ k) = x * (1 - u) ^ k * (1 - u) ^ j := by ring
      _ ≤ _ := this.trans h.1
  · have := mul_le_mul_of_nonneg_right h.2 hk
    rw [pow_add, ← mul_assoc]
    exact this.trans h'.2

theorem within_rnd {rnd : K → K} (hu1 : u < 1) (hr : Rounds rnd u) (hx : 0 ≤ x) : UpTo u 1 (rnd x) x := by
  have h := hr x
  rw [abs_of_nonneg hx, abs_le] at h
  rw [UpTo, pow_one]
  refine ⟨by linarith [h.1], ?_⟩
  have h2 := mul_le_mul_of_nonneg_right (show rnd x ≤ (1 + u) * x by linarith [h.2]) (by linarith : 0 ≤ 1 - u)
  have : 0 ≤ u ^ 2 * x := by positivity
  linarith

theorem Spec.UpTo.rnd {rnd : K → K} (hu1 : u < 1) (hr : Rounds rnd u) (hx : 0 ≤ x) (h : UpTo u k x' x) :
    UpTo u (k + 1) (rnd x') x := by
  rw [add_comm]
  exact (within_rnd hu1 hr (h.nonneg hu1 hx)).trans hu1 h

theorem Spec.UpTo.add (h : UpTo u k x' x) (h' : UpTo u k y' y) : UpTo u k (x' + y') (x + y) := by
  constructor
  · rw [add_mul]; exact add_le_add h.1 h'.1
  · rw [add_mul]; exact add_le_add h.2 h'.2

theorem Spec.UpTo.mul (hu1 : u < 1) (hx : 0 ≤ x) (hy : 0 ≤ y) (h : UpTo u j x' x) (h' : UpTo u k y' y) :
    UpTo u (j + k) (x' * y') (x * y) := by
  have hj : 0 ≤ (1 - u) ^ j := pow_nonneg (by linarith) _
  have hk : 0 ≤ (1 - u) ^ k := pow_nonneg (by linarith) _
  constructor
  · calc x * y * (1 - u) ^ (j + k) = x * (1 - u) ^ j * (y * (1 - u) ^ k) := by rw [pow_add]; ring
      _ ≤ _ := mul_le_mul h.1 h'.1 (mul_nonneg hy hk) (h.nonneg hu1 hx)
  · calc x' * y' * (1 - u) ^ (j + k) = x' * (1 - u) ^ j * (y' * (1 - u) ^ k) := by rw [pow_add]; ring
      _ ≤ _ := mul_le_mul h.2 h'.2 (mul_nonneg (h'.nonneg hu1 hy) hk) hx

theorem Spec.UpTo.pos (hu1 : u < 1) (hx : 0 < x) (h : UpTo u k x' x) : 0 < x' :=
  (mul_pos hx (pow_pos (by linarith) _)).trans_le h.1

theorem Spec.UpTo.inv (hu1 : u < 1) (hx : 0 < x) (h : UpTo u k x' x) : UpTo u k x'⁻¹ x⁻¹ := by
  have hx' := h.pos hu1 hx
  constructor
  · rw [inv_mul_le_iff₀ hx, ← div_eq_mul_inv, le_div_iff₀ hx', mul_comm]
    exact h.2
  · rw [inv_mul_le_iff₀ hx', ← div_eq_mul_inv, le_div_iff₀ hx, mul_comm]
    exact h.1

theorem Spec.UpTo.div (hu1 : u < 1) (hx : 0 ≤ x) (hy : 0 < y) (h : UpTo u j x' x) (h' : UpTo u k y' y) :
    UpTo u (j + k) (x' / y') (x / y) := by
  rw [div_eq_mul_inv, div_eq_mul_inv]
  exact h.mul hu1 hx (inv_nonneg.2 hy.le) (h'.inv hu1 hy)

/-- The square of a rounded number. -/
theorem within_sq {rnd : K → K} (hu1 : u < 1) (hr : Rounds rnd u) (d : K) : UpTo u 2 (rnd d * rnd d) (d ^ 2) := by
  have h : |rnd d - d| ≤ u * |d| := hr d
  have h1 := abs_sub_abs_le_abs_sub (rnd d) d
  have h2 := abs_sub_abs_le_abs_sub d (rnd d)
  rw [abs_sub_comm] at h2
  have hd := abs_nonneg d
  have hb : UpTo u 1 |rnd d| |d| := by
    rw [UpTo, pow_one]
    refine ⟨by linarith, ?_⟩
    have h3 := mul_le_mul_of_nonneg_right (show |rnd d| ≤ (1 + u) * |d| by linarith) (by linarith : 0 ≤ 1 - u)
    have : 0 ≤ u ^ 2 * |d| := by positivity
    linarith
  have := hb.mul hu1 hd hd hb
  rwa [abs_mul_abs_self, abs_mul_abs_self, ← sq d] at this

/-! ## The fit of numbers -/

/-- The sum of the squared distances over the squared errors. -/
def Spec.chi2 (weighted : Bool) (ps : List (K × K × K)) : K :=
  (ps.map fun p => (p.1 - p.2.1) ^ 2 / (if weighted then p.2.2 ^ 2 else 1)).sum

/-- These three numbers, as the fit takes them. -/
def Spec.asPart (p : K × K × K) : FitPart K := ⟨.fin p.1, .fin p.2.1, .fin p.2.2⟩

theorem lib_add (L : FloatLib K) (a b : K) : L.add (.fin a) (.fin b) = .fin (L.rnd (a + b)) := rfl
theorem lib_sub (L : FloatLib K) (a b : K) : L.sub (.fin a) (.fin b) = .fin (L.rnd (a - b)) := by
  rw [sub_eq_add_neg]; rfl
theorem lib_mul (L : FloatLib K) (a b : K) : L.mul (.fin a) (.fin b) = .fin (L.rnd (a * b)) := rfl
theorem lib_div (L : FloatLib K) (a b : K) (h : b ≠ 0) : L.div (.fin a) (.fin b) = .fin (L.rnd (a / b)) := by
  unfold FloatLib.div; rw [XF.div_fin _ _ h]; rfl

theorem term_nonneg (w : Bool) (p : K × K × K) : 0 ≤ (p.1 - p.2.1) ^ 2 / (if w then p.2.2 ^ 2 else 1) := by
  refine div_nonneg (sq_nonneg _) ?_
  split
  · exact sq_nonneg _
  · exact zero_le_one

theorem term_within {L : FloatLib K} (hu : 0 ≤ u) (hu1 : u < 1) (hr : Rounds L.rnd u) (w : Bool) (p : K × K × K)
    (he : w = true → p.2.2 ≠ 0) :
    ∃ z, FitRounded.term L w (asPart p) = .fin z ∧
      UpTo u 5 z ((p.1 - p.2.1) ^ 2 / (if w then p.2.2 ^ 2 else 1)) := by
  obtain ⟨x, t, e⟩ := p
  have h1 := (within_sq hu1 hr (x - t)).rnd hu1 hr (sq_nonneg _)
  have hw : ∃ v, FitRounded.weight L w (.fin e) = .fin v ∧ UpTo u 1 v (if w then e ^ 2 else 1) ∧
      0 < (if w then e ^ 2 else 1) := by
    cases w
    · exact ⟨1, rfl, (UpTo.refl 1).mono hu hu1 (by simp) (by norm_num), by simp⟩
    · have he := he rfl
      refine ⟨L.rnd (e * e), ?_, ?_, by simpa using pow_pos (abs_pos.2 he) 2 |>.trans_eq (sq_abs e)⟩
      · unfold FitRounded.weight FloatLib.sq
        rw [if_pos rfl, lib_mul]
      · rw [if_pos rfl, sq]
        exact within_rnd hu1 hr (mul_self_nonneg e)
  obtain ⟨v, ev, nv, vpos⟩ := hw
  refine ⟨L.rnd (L.rnd (L.rnd (x - t) * L.rnd (x - t)) / v), ?_, ?_⟩
  · unfold FitRounded.term FloatLib.sq asPart
    simp only [lib_sub, lib_mul, ev]
    rw [lib_div _ _ _ (nv.pos hu1 vpos).ne']
  · exact (h1.div hu1 (sq_nonneg _) vpos nv).rnd hu1 hr (div_nonneg (sq_nonneg _) vpos.le)

theorem chi2_nonneg (w : Bool) (ps : List (K × K × K)) : 0 ≤ chi2 w ps := by
  refine List.sum_nonneg ?_
  intro x hx
  obtain ⟨p, -, rfl⟩ := List.mem_map.1 hx
  exact term_nonneg w p

theorem fold_within {L : FloatLib K} (hu : 0 ≤ u) (hu1 : u < 1) (hr : Rounds L.rnd u) (w : Bool) :
    ∀ (ps : List (K × K × K)) (k : ℕ) (a' a : K), 5 ≤ k → 0 ≤ a → UpTo u k a' a →
      (∀ p ∈ ps, w = true → p.2.2 ≠ 0) →
      ∃ z, (ps.map asPart).foldl (fun data p => L.add data (FitRounded.term L w p)) (.fin a') = .fin z ∧
        UpTo u (k + ps.length) z (a + chi2 w ps)
  | [], k, a', a, _, _, h, _ => ⟨a', rfl, by simpa [chi2] using h⟩
  | p :: ps, k, a', a, hk, ha, h, he => by
    obtain ⟨t, et, nt⟩ := term_within hu hu1 hr w p (he p (by simp))
    have hq := term_nonneg w p
    have h1 := (h.add (nt.mono hu hu1 hq hk)).rnd hu1 hr (add_nonneg ha hq)
    obtain ⟨z, ez, nz⟩ := fold_within hu hu1 hr w ps (k + 1) _ _ (by omega) (add_nonneg ha hq) h1
      (fun q hq => he q (by simp [hq]))
    refine ⟨z, ?_, ?_⟩
    · rw [List.map_cons, List.foldl_cons, et, lib_add]
      exact ez
    · rw [List.length_cons, show k + (ps.length + 1) = k + 1 + ps.length by omega]
      unfold chi2 at nz ⊢
      rwa [List.map_cons, List.sum_cons, ← add_assoc]

/-- **C110** The fit that is computed from the stored gradients is their fit up to as many roundings as there are
gradients, and five. -/
theorem C110_fit (L : FloatLib K) (hu : 0 ≤ u) (hu1 : u < 1) (hr : Rounds L.rnd u) (w : Bool)
    (ps : List (K × K × K)) (he : ∀ p ∈ ps, w = true → p.2.2 ≠ 0) :
    ∃ z, FitRounded.fitAt L w (ps.map asPart) = .fin z ∧ UpTo u (ps.length + 5) z (chi2 w ps) := by
  obtain ⟨z, e, n⟩ := fold_within hu hu1 hr w ps 5 0 0 le_rfl le_rfl ⟨by simp, by simp⟩ he
  refine ⟨z, e, ?_⟩
  rwa [zero_add, add_comm] at n

/-- **C110** A disk whose fit is better by more than the roundings is computed to be better. -/
theorem C110_order (L : FloatLib K) (hu : 0 ≤ u) (hu1 : u < 1) (hr : Rounds L.rnd u) (w : Bool)
    (ps qs : List (K × K × K)) (hn : ps.length = qs.length) (hp : ∀ p ∈ ps, w = true → p.2.2 ≠ 0)
    (hq : ∀ p ∈ qs, w = true → p.2.2 ≠ 0) (h : chi2 w ps < chi2 w qs * (1 - u) ^ (2 * (ps.length + 5))) :
    ∃ a b, FitRounded.fitAt L w (ps.map asPart) = .fin a ∧ FitRounded.fitAt L w (qs.map asPart) = .fin b ∧ a < b := by
  obtain ⟨a, ea, na⟩ := C110_fit L hu hu1 hr w ps hp
  obtain ⟨b, eb, nb⟩ := C110_fit L hu hu1 hr w qs hq
  refine ⟨a, b, ea, eb, ?_⟩
  have hpos : 0 < (1 - u) ^ (ps.length + 5) := pow_pos (by linarith) _
  rw [← hn] at nb
  rw [two_mul, pow_add, ← mul_assoc] at h
  refine lt_of_mul_lt_mul_right (a := (1 - u) ^ (ps.length + 5)) ?_ hpos.le
  exact (na.2.trans_lt h).trans_le (mul_le_mul_of_nonneg_right nb.1 hpos.le)

/-- The order of two values that are known up to `k` roundings. -/
theorem better_upTo {v v' : ℕ → K} (hu : 0 ≤ u) (hu1 : u < 1) {i j : ℕ} (hi : UpTo u k (v' i) (v i))
    (hj : UpTo u k (v' j) (v j)) (h : Better v' i j) : v i * (1 - u) ^ (2 * k) ≤ v j := by
  have hpos : 0 ≤ (1 - u) ^ k := pow_nonneg (by linarith) _
  have hle : v' i ≤ v' j := by
    rcases h with h | h
    · exact h.le
    · exact h.1.le
  rw [two_mul, pow_add, ← mul_assoc]
  exact (mul_le_mul_of_nonneg_right (hi.1.trans hle) hpos).trans hj.2

end

section
variable {K : Type} [Field K] [LinearOrder K] [IsStrictOrderedRing K] [FloorRing K] [RealFns K] {u : K}

/-- **C110** If the fit of a grid was computed in floating point, from the numbers `ps i` at element `i`, the
solutions that are extracted are the best ones up to roundings: no grid point, extracted later or not at all,
has a fit that is better than `(1 - u) ^ (2 (n + 5))` times that of an extracted one. -/
theorem C110_solutions (L : FloatLib K) (hu : 0 ≤ u) (hu1 : u < 1) (hr : Rounds L.rnd u) (w : Bool)
    (s : Shallot K) (hs : Sound s) (hd : s.diagnosticMap ≠ none) (n : ℕ) (ps : ℕ → List (K × K × K))
    (hps : ∀ i ∈ unmasked s, (ps i).length = n ∧ ∀ p ∈ ps i, w = true → p.2.2 ≠ 0)
    (hfit : ∃ f, s.gradientFit = some f ∧ ∀ i ∈ unmasked s,
      f.data.data[i]? = some (FitRounded.fitAt L w ((ps i).map asPart)) ∧ ¬ Marked f.mask i)
    (num : PyVal K) (k : ℕ) (ha : AsksFor s num k) (hk : k ≤ (unmasked s).card) :
    ∃ is rows s', Shallot.extractSolutions num s = (.ok rows, s') ∧ is.length = k ∧ is.Nodup ∧
      (∀ i ∈ is, i ∈ unmasked s) ∧
      is.Pairwise (fun i j => chi2 w (ps i) * (1 - u) ^ (2 * (n + 5)) ≤ chi2 w (ps j)) ∧
      (∀ i ∈ is, ∀ j ∈ unmasked s, j ∉ is → chi2 w (ps i) * (1 - u) ^ (2 * (n + 5)) ≤ chi2 w (ps j)) ∧
      List.Forall₂ (fun i row => (∃ z, row.rms = XF.fin z ∧ UpTo u (n + 5) z (chi2 w (ps i))) ∧ RowOf s i row)
        is rows := by
  classical
  have hz : ∀ i, ∃ z, i ∈ unmasked s → FitRounded.fitAt L w ((ps i).map asPart) = .fin z ∧
      UpTo u (n + 5) z (chi2 w (ps i)) := by
    intro i
    by_cases hi : i ∈ unmasked s
    · obtain ⟨z, e, h⟩ := C110_fit L hu hu1 hr w (ps i) (hps i hi).2
      rw [(hps i hi).1] at h
      exact ⟨z, fun _ => ⟨e, h⟩⟩
    · exact ⟨0, fun h => absurd h hi⟩
  choose v hv using hz
  obtain ⟨f, hf, hf2⟩ := hfit
  obtain ⟨is, rows, s', e, h1, h2, h3, h4, h5, h6⟩ := C45_best_partial s hs hd v
    ⟨f, hf, fun i hi => ⟨by rw [(hf2 i hi).1, (hv i hi).1], (hf2 i hi).2⟩⟩ num k ha hk
  refine ⟨is, rows, s', e, h1, h2, h3, ?_, ?_, ?_⟩
  · exact List.Pairwise.imp_of_mem (fun {a b} hma hmb hab => better_upTo (v := fun i => chi2 w (ps i)) hu hu1
      (hv a (h3 a hma)).2 (hv b (h3 b hmb)).2 hab) h4
  · intro i hi j hj hji
    exact better_upTo (v := fun i => chi2 w (ps i)) hu hu1 (hv i (h3 i hi)).2 (hv j hj).2 (h5 i hi j hj hji)
  · clear h1 h2 h4 h5 e
    induction h6 with
    | nil => exact .nil
    | cons hh _ ih => exact .cons ⟨⟨_, hh.1, (hv _ (h3 _ (by simp))).2⟩, hh.2⟩ (ih fun i hi => h3 i (by simp [hi]))

end

/-! ## From the measurements on -/

open Real

theorem minkowski2 {a b c p q r : ℝ} (hp : 0 ≤ p) (hq : 0 ≤ q) (hr : 0 ≤ r) (h : |c| ≤ |a| + |b|)
    (h' : √r ≤ √p + √q) : √(c ^ 2 + r) ≤ √(a ^ 2 + p) + √(b ^ 2 + q) := by
  have hP := sq_sqrt hp
  have hQ := sq_sqrt hq
  have hR := sq_sqrt hr
  have p0 := sqrt_nonneg p
  have q0 := sqrt_nonneg q
  have r0 := sqrt_nonneg r
  have hA : 0 ≤ a ^ 2 + p := by positivity
  have hB : 0 ≤ b ^ 2 + q := by positivity
  have key : |a| * |b| + √p * √q ≤ √(a ^ 2 + p) * √(b ^ 2 + q) := by
    rw [← sqrt_mul hA]
    refine le_sqrt_of_sq_le ?_
    rw [← hP, ← hQ, ← sq_abs a, ← sq_abs b, sqrt_sq p0, sqrt_sq q0]
    nlinarith [sq_nonneg (|a| * √q - |b| * √p)]
  refine sqrt_le_iff.2 ⟨by positivity, ?_⟩
  rw [add_sq, sq_sqrt hA, sq_sqrt hB]
  have h1 : c ^ 2 ≤ (|a| + |b|) ^ 2 := by
    rw [← sq_abs c]
    exact pow_le_pow_left₀ (abs_nonneg c) h 2
  have h2 : r ≤ (√p + √q) ^ 2 := by
    rw [← hR]
    exact pow_le_pow_left₀ r0 h' 2
  rw [add_sq, sq_abs, sq_abs] at h1
  rw [add_sq, hP, hQ] at h2
  linarith

/-- Square roots of sums of squares: the triangle inequality. -/
theorem minkowski {α : Type} (a b c : α → ℝ) : ∀ l : List α, (∀ x ∈ l, |c x| ≤ |a x| + |b x|) →
    √((l.map fun x => c x ^ 2).sum) ≤ √((l.map fun x => a x ^ 2).sum) + √((l.map fun x => b x ^ 2).sum)
  | [], _ => by simp
  | x :: l, h => by
    have ih := minkowski a b c l fun y hy => h y (by simp [hy])
    have pos : ∀ f : α → ℝ, 0 ≤ (l.map fun x => f x ^ 2).sum := fun f => List.sum_nonneg (by
      intro y hy
      obtain ⟨z, -, rfl⟩ := List.mem_map.1 hy
      exact sq_nonneg _)
    simp only [List.map_cons, List.sum_cons]
    exact minkowski2 (pos a) (pos b) (pos c) (h x (by simp)) ih

/-- A measurement, with the gradient of a disk at its time. -/
structure Spec.Observed where
  time : ℝ
  slope : ℝ
  error : ℝ
  transmission : ℝ
  gradient : ℝ

/-- What the measurement asks for. -/
noncomputable def Spec.Observed.asked (q : Observed) (velocity limb : ℝ) : ℝ :=
  q.slope * orbitalFactor velocity limb / q.transmission

/-- What is computed for it. -/
noncomputable def Spec.Observed.part (L : FloatLib ℝ) (duration velocity limb dx dy fx fy : ℝ) (q : Observed) : FitPart ℝ :=
  FitRounded.part L (.fin duration) (.fin velocity) (.fin limb) (.fin dx) (.fin dy) (.fin fx) (.fin fy)
    (.fin q.time) (.fin q.slope) (.fin q.error) (.fin q.transmission)

/-- The fit of gradients and scaled measurements that are known up to errors. -/
theorem fit_of_parts (L : FloatLib ℝ) (u : ℝ) (hL : Accurate L u) (hu1 : 1000 * u ≤ 1) (w : Bool)
    (duration v l dx dy fx fy : ℝ) (qs : List Observed) (hq : ∀ q ∈ qs, w = true → q.error ≠ 0)
    (hc : ∀ q ∈ qs, ∃ g' t', Observed.part L duration v l dx dy fx fy q = asPart (g', t', q.error) ∧
      |g' - t' - (q.gradient - q.asked v l)| ≤ u * (38 * fuzz (L.rnd (-q.time / duration)) dx dy fx fy
        (shearOf dx dy) + 51 * q.asked v l)) :
    ∃ z, FitRounded.fitAt L w (qs.map (Observed.part L duration v l dx dy fx fy)) = .fin z ∧
      √(z * (1 - u) ^ (qs.length + 5)) ≤ √(chi2 w (qs.map fun q => (q.gradient, q.asked v l, q.error))) +
        √(chi2 w (qs.map fun q => (u * (38 * fuzz (L.rnd (-q.time / duration)) dx dy fx fy (shearOf dx dy) +
          51 * q.asked v l), 0, q.error))) ∧
      √(chi2 w (qs.map fun q => (q.gradient, q.asked v l, q.error))) ≤ √(z / (1 - u) ^ (qs.length + 5)) +
        √(chi2 w (qs.map fun q => (u * (38 * fuzz (L.rnd (-q.time / duration)) dx dy fx fy (shearOf dx dy) +
          51 * q.asked v l), 0, q.error))) := by
  have hu := hL.nonneg
  have hu1' : u < 1 := by linarith
  have hc' : ∀ q, ∃ g' t', q ∈ qs → Observed.part L duration v l dx dy fx fy q = asPart (g', t', q.error) ∧
      |g' - t' - (q.gradient - q.asked v l)| ≤ u * (38 * fuzz (L.rnd (-q.time / duration)) dx dy fx fy
        (shearOf dx dy) + 51 * q.asked v l) := by
    intro q
    by_cases hqm : q ∈ qs
    · obtain ⟨g', t', hh⟩ := hc q hqm
      exact ⟨g', t', fun _ => hh⟩
    · exact ⟨0, 0, fun hh => absurd hh hqm⟩
  choose G T hGT using hc'
  obtain ⟨z, ez, nz⟩ := C110_fit L hu hu1' hL.rnd w (qs.map fun q => (G q, T q, q.error)) (by
    intro p hp
    obtain ⟨q, hqm, rfl⟩ := List.mem_map.1 hp
    exact hq q hqm)
  rw [List.map_map, List.length_map] at *
  refine ⟨z, ?_, ?_⟩
  · rw [← ez]
    congr 1
    exact List.map_congr_left fun q hqm => (hGT q hqm).1
  -- as sums of squares
  have hsum : ∀ f : Observed → ℝ × ℝ, chi2 w (qs.map fun q => ((f q).1, (f q).2, q.error)) =
      (qs.map fun q => (((f q).1 - (f q).2) / (if w then q.error else 1)) ^ 2).sum := by
    intro f
    unfold chi2
    rw [List.map_map]
    congr 1
    refine List.map_congr_left fun q _ => ?_
    cases w <;> simp [div_pow]
  have hpow : 0 < (1 - u) ^ (qs.length + 5) := pow_pos (by linarith) _
  have e1 := hsum fun q => (G q, T q)
  have e2 := hsum fun q => (q.gradient, q.asked v l)
  have e3 := hsum fun q => (u * (38 * fuzz (L.rnd (-q.time / duration)) dx dy fx fy (shearOf dx dy) +
          51 * q.asked v l), 0)
  dsimp only at e1 e2 e3
  rw [e2, e3]
  have nz' := nz
  rw [e1] at nz'
  have m1 := minkowski
    (fun q : Observed => (q.gradient - q.asked v l) / (if w then q.error else 1))
    (fun q : Observed => (u * (38 * fuzz (L.rnd (-q.time / duration)) dx dy fx fy (shearOf dx dy) +
      51 * q.asked v l) - 0) / (if w then q.error else 1))
    (fun q : Observed => (G q - T q) / (if w then q.error else 1)) qs (by
      intro q hqm
      have hb := (hGT q hqm).2
      rw [abs_div, abs_div, abs_div, ← add_div]
      refine div_le_div_of_nonneg_right ?_ (abs_nonneg _)
      rw [sub_zero]
      have h1 := abs_sub_abs_le_abs_sub (G q - T q) (q.gradient - q.asked v l)
      have h2 := le_abs_self (u * (38 * fuzz (L.rnd (-q.time / duration)) dx dy fx fy (shearOf dx dy) +
        51 * q.asked v l))
      linarith)
  have m2 := minkowski
    (fun q : Observed => (G q - T q) / (if w then q.error else 1))
    (fun q : Observed => (u * (38 * fuzz (L.rnd (-q.time / duration)) dx dy fx fy (shearOf dx dy) +
      51 * q.asked v l) - 0) / (if w then q.error else 1))
    (fun q : Observed => (q.gradient - q.asked v l) / (if w then q.error else 1)) qs (by
      intro q hqm
      have hb := (hGT q hqm).2
      rw [abs_div, abs_div, abs_div, ← add_div]
      refine div_le_div_of_nonneg_right ?_ (abs_nonneg _)
      rw [sub_zero]
      have h1 := abs_sub_abs_le_abs_sub (q.gradient - q.asked v l) (G q - T q)
      rw [abs_sub_comm (q.gradient - q.asked v l) (G q - T q)] at h1
      have h2 := le_abs_self (u * (38 * fuzz (L.rnd (-q.time / duration)) dx dy fx fy (shearOf dx dy) +
        51 * q.asked v l))
      linarith)
  refine ⟨(sqrt_le_sqrt nz'.2).trans m1, m2.trans (add_le_add (sqrt_le_sqrt ?_) le_rfl)⟩
  rw [le_div_iff₀ hpow]
  exact nz'.1

/-- C110 (partial): the fit that is computed for a disk from the measurements on is its fit, up to the roundings
of the sum, and up to the errors of gradients and scaled measurements by the triangle inequality.  Missing:
edges that are vertical up to the rounding error. -/
theorem C110_measured_partial (L : FloatLib ℝ) (u : ℝ) (hL : Accurate L u) (hu1 : 1000 * u ≤ 1) (w : Bool)
    (duration v l dx dy fx fy : ℝ) (hx : 0 < fx) (hy : 0 < fy) (h : dy ≠ 0 ∨ dx = 0) (hd : 0 < duration)
    (l0 : 0 ≤ l) (l1 : l ≤ 1) (v0 : 0 < v) (qs : List Observed)
    (hq : ∀ q ∈ qs, 0 ≤ q.slope ∧ 0 < q.transmission ∧ (w = true → q.error ≠ 0) ∧
      Geometry.diskGradient (.fin (-q.time / duration)) (.fin dx) (.fin dy) (Geometry.shear (.fin dx) (.fin dy))
        (.fin fx) (.fin fy) = .fin q.gradient ∧
      18 * u * fuzz (L.rnd (-q.time / duration)) dx dy fx fy (shearOf dx dy) < √(1 - q.gradient ^ 2)) :
    ∃ z, FitRounded.fitAt L w (qs.map (Observed.part L duration v l dx dy fx fy)) = .fin z ∧
      √(z * (1 - u) ^ (qs.length + 5)) ≤ √(chi2 w (qs.map fun q => (q.gradient, q.asked v l, q.error))) +
        √(chi2 w (qs.map fun q => (u * (38 * fuzz (L.rnd (-q.time / duration)) dx dy fx fy (shearOf dx dy) +
          51 * q.asked v l), 0, q.error))) ∧
      √(chi2 w (qs.map fun q => (q.gradient, q.asked v l, q.error))) ≤ √(z / (1 - u) ^ (qs.length + 5)) +
        √(chi2 w (qs.map fun q => (u * (38 * fuzz (L.rnd (-q.time / duration)) dx dy fx fy (shearOf dx dy) +
          51 * q.asked v l), 0, q.error))) := by
  have hu := hL.nonneg
  -- what is computed for each
  have hc : ∀ q ∈ qs, ∃ g' t', Observed.part L duration v l dx dy fx fy q = asPart (g', t', q.error) ∧
      |g' - t' - (q.gradient - q.asked v l)| ≤ u * (38 * fuzz (L.rnd (-q.time / duration)) dx dy fx fy
        (shearOf dx dy) + 51 * q.asked v l) := by
    intro q hqm
    obtain ⟨h1, h2, -, h4, h5⟩ := hq q hqm
    obtain ⟨p', ep, hg⟩ := C109_measured_partial L u hL hu1 q.time duration dx dy fx fy q.gradient hx hy h hd h4
    have hp' : p' = L.rnd (-q.time / duration) := by
      unfold GeometryRounded.position at ep
      rw [XF.neg_fin, L.div_fin _ _ hd.ne'] at ep
      injection ep with ep
      exact ep.symm
    rw [← hp'] at h5 ⊢
    obtain ⟨g', eg, ng⟩ := hg h5
    obtain ⟨t', et, nt⟩ := C109_scaled L u hL hu1 q.slope l v q.transmission l0 l1 v0 h2
    refine ⟨g', t', ?_, ?_⟩
    · unfold Observed.part FitRounded.part asPart
      rw [XF.abs_fin, abs_of_nonneg h1, et, ep, eg]
    · have hT : 0 ≤ q.asked v l := by
        unfold Observed.asked
        have : 0 ≤ orbitalFactor v l := by
          unfold orbitalFactor
          have h1 : 0 ≤ 6 - 2 * l := by linarith
          have h2 : 0 ≤ 12 - 12 * l + 3 * π * l := by
            have : 0 ≤ 3 * π * l := by positivity
            linarith
          have := pi_pos
          positivity
        positivity
      have nt' : |t' - q.asked v l| ≤ 51 * u * |q.asked v l| := nt
      rw [abs_of_nonneg hT] at nt'
      rw [show g' - t' - (q.gradient - q.asked v l) = (g' - q.gradient) - (t' - q.asked v l) by ring]
      refine (abs_sub _ _).trans ?_
      linarith
  exact fit_of_parts L u hL hu1 w duration v l dx dy fx fy qs (fun q hqm => (hq q hqm).2.2.1) hc

/-- C110 (negation): in binary64, with a measurement that asks for the gradient 1/2, two disks with the gradients
2^-60 and 2^-61 get the same fit, though the first one is better. -/
theorem C110_false :
    (∀ L : FloatLib ℚ, L.rnd = toDouble →
      FitRounded.fitAt L true ([(1 / 2 ^ 60, 1 / 2, 1)].map asPart) =
        FitRounded.fitAt L true ([(1 / 2 ^ 61, 1 / 2, 1)].map asPart)) ∧
    chi2 true [((1 / 2 ^ 60 : ℚ), 1 / 2, 1)] < chi2 true [(1 / 2 ^ 61, 1 / 2, 1)] := by
  constructor
  · intro L hL
    simp only [FitRounded.fitAt, List.map, List.foldl, asPart, FitRounded.term, FitRounded.weight, FloatLib.sub,
      FloatLib.mul, FloatLib.sq, FloatLib.add, FloatLib.div, hL]
    decide +kernel
  · norm_num [chi2]

/-- Two disks that binary64 tells apart. -/
example : ∃ a b, FitRounded.fitAt .double true ([((1 / 3 : ℝ), 1 / 4, 1 / 10), (1 / 2, 1 / 3, 1 / 10)].map asPart) = .fin a ∧
    FitRounded.fitAt .double true ([((1 / 3 : ℝ), 1 / 4, 1 / 10), (2 / 3, 1 / 3, 1 / 10)].map asPart) = .fin b ∧ a < b :=
  C110_order .double (u := 1 / 2 ^ 53) (by positivity) (by norm_num) double_rounds true _ _ rfl (by simp) (by simp)
    (by norm_num [chi2])

/-- A grid with a fit that was computed in binary64 from gradients `i / 100`, of which two solutions are extracted:
the second is not better than the first by more than twelve roundings. -/
example : ∃ (s s' : Shallot ℝ) (rows : List (Shallot.Solution ℝ)) (i j : ℕ),
    Shallot.extractSolutions (.int 2) s = (.ok rows, s') ∧ i ≠ j ∧
    chi2 true [((i : ℝ) / 100, 1 / 3, 1 / 10)] * (1 - 1 / 2 ^ 53) ^ 12 ≤ chi2 true [((j : ℝ) / 100, 1 / 3, 1 / 10)] := by
  obtain ⟨s, s₁, g, k, hs, hr, hg, ho, hk, hdm, h1, hs₁, hgs, hdm₁, hgr, -, -, -, h3, h4, h5⟩ :=
    throwAway_probe 0 0 1 le_rfl (by norm_num) zero_le_one
  obtain ⟨p, hp⟩ : ∃ p : GProp ℝ, p = { s₁.diskRadius with
    data := ⟨[3, 3, 3], (List.range 27).map fun i : ℕ =>
      FitRounded.fitAt .double true ([((i : ℝ) / 100, 1 / 3, 1 / 10)].map asPart)⟩
    mask := none } := ⟨_, rfl⟩
  have hs₂ : Sound { s₁ with gradientFit := some p } := sound_setProp hs₁ .gradientFit p (by
    rw [hgs, hp]
    exact ⟨⟨rfl, by simp⟩, by intro m hm; cases hm⟩)
  have hun : unmasked { s₁ with gradientFit := some p } = unmasked s₁ := by
    ext i
    rw [mem_unmasked, mem_unmasked]
    rfl
  have hcard : 2 ≤ (unmasked { s₁ with gradientFit := some p }).card := by
    have hsub : ({4, 22} : Finset ℕ) ⊆ unmasked s₁ := by
      intro i hi
      simp only [Finset.mem_insert, Finset.mem_singleton] at hi
      obtain ⟨v, hv, hv0, -⟩ := h5 i hi
      exact probe_unmasked hgs h3 h4 (by omega) hv (by simpa using hv0)
    rw [hun]
    exact Finset.card_le_card hsub
  obtain ⟨is, rows, s', e, l, nd, -, hpw, -, -⟩ := C110_solutions .double (by positivity) (by norm_num) double_rounds
    true _ hs₂ hdm₁ 1 (fun i => [((i : ℝ) / 100, 1 / 3, 1 / 10)])
    (by intro i _; exact ⟨rfl, by simp⟩)
    ⟨p, rfl, by
      intro i hi
      rw [mem_unmasked] at hi
      have hi27 : i < 27 := by
        have h := hi.1
        unfold elements at h
        dsimp only at h
        rwa [hgs] at h
      rw [hp]
      refine ⟨?_, by rintro ⟨m, hm, -⟩; cases hm⟩
      dsimp only
      rw [List.getElem?_map, List.getElem?_range hi27]
      rfl⟩
    (.int 2) 2 (Or.inr (.int 2)) hcard
  match is, l, nd, hpw with
  | [i, j], _, nd, hpw =>
    refine ⟨_, s', rows, i, j, e, ?_, ?_⟩
    · simpa using nd
    · simpa using hpw

/-- The measurement and the disk of the example for C109: the fit is `(1 / √2 - 1 / 2) ^ 2` up to about 100
units of rounding. -/
example : ∃ z, FitRounded.fitAt .double true
      [Observed.part .double 1 π 0 0 1 1 1 ⟨-1, 1, 1, 1, 1 / √2⟩] = .fin z ∧
    √(z * (1 - 1 / 2 ^ 53) ^ 6) ≤ 1 / √2 - 1 / 2 + 1 / 2 ^ 46 := by
  have hs : shearOf 0 1 = 0 := by unfold shearOf; norm_num
  have hg : Geometry.diskGradient (.fin (- -1 / 1)) (.fin 0) (.fin 1) (Geometry.shear (.fin 0) (.fin 1)) (.fin 1)
      (.fin 1) = .fin (1 / √2) := by
    rw [gradient_eq _ _ _ _ _ (Or.inr rfl), hs, if_neg (by norm_num)]
    congr 1
    unfold steep
    norm_num
  have hp : FloatLib.double.rnd (- -1 / 1) = 1 := by
    rw [neg_neg, div_one]; exact double_one
  have hf : fuzz 1 0 1 1 1 0 = √2 := by
    unfold fuzz terms edgeLength
    rw [show |(0 : ℝ) * 1 ^ 2 * 1| + |(1 : ℝ) ^ 2 * (1 - 0)| + (|((0 : ℝ) ^ 2 * 1 ^ 2 + 1 ^ 2) * 1| +
      |(0 : ℝ) * 1 ^ 2 * (1 - 0)|) = 2 by norm_num, show ((1 : ℝ) ^ 2 * 1) ^ 2 + (0 * 1 ^ 2 * 1 - 1 ^ 2 * 1) ^ 2 = 2 by
      norm_num, div_sqrt]
  have r1 : √(2 : ℝ) ≤ 1.42 := sqrt_le_iff.2 (by norm_num)
  have r0 : (0 : ℝ) < √2 := sqrt_pos.2 (by norm_num)
  have r4 : (0.7 : ℝ) ≤ 1 / √2 := by rw [le_div_iff₀ r0]; linarith
  have r5 : (0.7 : ℝ) ≤ √(1 - (1 / √2) ^ 2) := le_sqrt_of_sq_le (by
    rw [div_pow, sq_sqrt (by norm_num)]; norm_num)
  have ho : orbitalFactor π 0 = 1 / 2 := by
    unfold orbitalFactor
    have := pi_pos.ne'
    field_simp
    norm_num
  obtain ⟨z, e, h, -⟩ := C110_measured_partial .double _ double_accurate (by norm_num) true 1 π 0 0 1 1 1 one_pos
    one_pos (Or.inr rfl) one_pos le_rfl (by norm_num) pi_pos [⟨-1, 1, 1, 1, 1 / √2⟩] (by
      intro q hq
      rw [List.mem_singleton] at hq
      subst hq
      refine ⟨by norm_num, by norm_num, by norm_num, hg, ?_⟩
      dsimp only
      rw [hp, hs, hf]
      norm_num at r5 ⊢
      linarith)
  refine ⟨z, e, h.trans ?_⟩
  have hc : ∀ a b : ℝ, b ≤ a → √(chi2 true [(a, b, (1 : ℝ))]) = a - b := by
    intro a b hab
    simp only [chi2, List.map, List.sum_cons, List.sum_nil, if_true, one_pow, div_one, add_zero]
    exact sqrt_sq (by linarith)
  simp only [List.map, Observed.asked]
  rw [hp, hs, hf, ho, hc _ _ (by norm_num at r4 ⊢; linarith), hc _ _ (by positivity)]
  norm_num
  linarith

end Beyonce
