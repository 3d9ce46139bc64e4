import Verif.GridRounded
import Verif.Props.GridParameters
import Verif.Props.Rounding

/-!
# Properties C92, C93: the vectors of `GridParameters` in floating point
-/

set_option linter.unusedSectionVars false

namespace Beyonce
open Spec
variable {K : Type} [Field K] [LinearOrder K]

/-- Rounding to floats: relative error at most `u`, the order is kept, floats are not changed, the
sign does not matter, and one is a float. -/
structure Spec.FloatRounding (rnd : K → K) (u : K) : Prop where
  error : Rounds rnd u
  mono : Monotone rnd
  idem : ∀ x, rnd (rnd x) = rnd x
  neg : ∀ x, rnd (-x) = -rnd x
  one : rnd 1 = 1

/-- binary64 (exponent range aside) is such a rounding, with `u = 2^-53`. -/
theorem toDouble_rounding : FloatRounding toDouble (1 / 2 ^ 53) :=
  ⟨toDouble_error, toDouble_mono, toDouble_idem, toDouble_neg, toDouble_one⟩

/-- `l` has `n` values from `a` to `b`, in order, the first one `a` and the last one `b`, each near
its place in an even division. -/
structure Spec.NearlyEven (l : List (XF K)) (a b : K) (n : ℕ) (u : K) : Prop where
  length : l.length = n
  first : l[0]? = some (.fin a)
  last : 2 ≤ n → l[n - 1]? = some (.fin b)
  inside : ∀ j < n, ∃ v, l[j]? = some (.fin v) ∧ a ≤ v ∧ v ≤ b
  sorted : ∀ (i j : ℕ) (v w : K), i ≤ j → l[i]? = some (.fin v) → l[j]? = some (.fin w) → v ≤ w
  near : ∀ (j : ℕ) (v : K), l[j]? = some (.fin v) →
    |v - (a + j * ((b - a) / (n - 1)))| ≤ u * (max |a| |b| + 4 * (b - a))

variable [IsStrictOrderedRing K]

/-! ## Without rounding it is the plain model -/

theorem XF.round_id (x : XF K) : x.round (fun x => x) = x := by cases x <;> rfl

theorem linspaceR_id (a b : XF K) (n : ℕ) : GridRounded.linspace (fun x => x) a b n = linspace a b n := by
  simp only [GridRounded.linspace, XF.round_id, linspace]

/-- Without rounding the constructor is that of the plain model. -/
theorem GridRounded.new_id (minX maxX numX minY maxY numY maxRf numRf : PyVal K) :
    GridRounded.new (fun x => x) minX maxX numX minY maxY numY maxRf numRf =
      GridParams.new minX maxX numX minY maxY numY maxRf numRf := by
  simp only [GridRounded.new, GridRounded.determineDx, GridRounded.determineDy,
    GridRounded.determineAxis, GridRounded.determineRf, linspaceR_id, GridParams.new,
    Beyonce.determineDx, Beyonce.determineDy, Beyonce.determineRf]

/-- Without rounding `extend_grid` is that of the plain model. -/
theorem GridRounded.extendGrid_id :
    GridRounded.extendGrid (fun x : K => x) = GridParams.extendGrid := by
  simp only [GridRounded.extendGrid, GridRounded.determineDx, GridRounded.determineDy,
    GridRounded.determineAxis, linspaceR_id, GridParams.extendGrid,
    Beyonce.determineDx, Beyonce.determineDy]

/-! ## `np.linspace` with rounding -/

section linspace
variable {rnd : K → K} {u : K}

theorem rnd_zero (h : Rounds rnd u) : rnd 0 = 0 := by
  have := h 0
  simpa using this

theorem rnd_eq_zero (h : Rounds rnd u) (hu : u < 1) {x : K} : rnd x = 0 ↔ x = 0 := by
  constructor
  · intro hx
    have h1 := h x
    rw [hx, zero_sub, abs_neg] at h1
    by_contra h0
    have : 0 < |x| := abs_pos.2 h0
    nlinarith
  · rintro rfl; exact rnd_zero h

/-- The value at position `j`. -/
def Spec.gridValue (rnd : K → K) (a b : K) (n j : ℕ) : K :=
  if j = n - 1 ∧ 1 < n then b else rnd (rnd (j * rnd (rnd (b - a) / (n - 1))) + a)

theorem linspaceR_fin (h : FloatRounding rnd u) (hu : u < 1) (x y : K) {n : ℕ} (hn : 1 ≤ n) :
    GridRounded.linspace rnd (.fin x) (.fin y) n =
      (List.range n).map fun j => .fin (gridValue rnd (rnd x) (rnd y) n j) := by
  have z := rnd_zero h.error
  rcases Nat.lt_or_ge n 2 with hn2 | hn2
  · obtain rfl : n = 1 := by omega
    simp [GridRounded.linspace, XF.round, XF.sub, XF.neg, XF.add, XF.mul, gridValue, z]
  have hn' : 1 < n := hn2
  have hd : (n : K) - 1 ≠ 0 := by
    have : (1 : K) < n := by exact_mod_cast hn'
    exact (by linarith : (0 : K) < n - 1).ne'
  apply List.ext_getElem?
  intro j
  simp only [GridRounded.linspace, XF.round, XF.sub, XF.neg, XF.add, ← sub_eq_add_neg, XF.div, hd,
    if_false, XF.mul, XF.eqb_fin, hn', if_true]
  rw [List.getElem?_set]
  by_cases hj : n - 1 = j
  · subst hj
    rw [if_pos rfl, if_pos (by simp; omega), List.getElem?_map, List.getElem?_range (by omega)]
    simp [gridValue, hn']
  · rw [if_neg hj]
    by_cases hjn : j < n
    · rw [List.getElem?_map, List.getElem?_map, List.getElem?_range hjn]
      have hj' : ¬ (j = n - 1 ∧ 1 < n) := by omega
      simp only [Option.map_some, gridValue, if_neg hj', Option.some.injEq]
      split_ifs with h0
      · have h0' : rnd (rnd (rnd y - rnd x) / ((n : K) - 1)) = 0 := by simpa using h0
        have h1 : rnd (rnd y - rnd x) = 0 := by
          rcases div_eq_zero_iff.1 ((rnd_eq_zero h.error hu).1 h0') with h1 | h1
          · exact h1
          · exact absurd h1 hd
        rw [h1]; simp [z]
      · rfl
    · rw [List.getElem?_eq_none (by simp; omega), List.getElem?_eq_none (by simp; omega)]

/-- The offsets before `start` is added. -/
theorem offset_bounds (h : FloatRounding rnd u) (hu0 : 0 ≤ u) (hu1 : u ≤ 1 / 4) {a b : K}
    (hab : a ≤ b) {n : ℕ} (hn : 2 ≤ n) (j : ℕ) :
    (1 - 4 * u) * (j * ((b - a) / (n - 1))) ≤ rnd (j * rnd (rnd (b - a) / (n - 1))) ∧
    rnd (j * rnd (rnd (b - a) / (n - 1))) ≤ (1 + 4 * u) * (j * ((b - a) / (n - 1))) ∧
    0 ≤ rnd (rnd (b - a) / (n - 1)) := by
  have hN : (0 : K) < (n : K) - 1 := by
    have : (1 : K) < n := by exact_mod_cast hn
    linarith
  have nn : ∀ x : K, 0 ≤ x → 0 ≤ rnd x := by
    intro x hx
    have := h.mono hx
    rwa [rnd_zero h.error] at this
  have hD : 0 ≤ b - a := sub_nonneg.2 hab
  have hj : (0 : K) ≤ j := by positivity
  obtain ⟨d1, d2⟩ := rounds_bounds h.error hD
  have dn := nn _ hD
  set δ := rnd (b - a)
  have hq : 0 ≤ δ / (n - 1) := div_nonneg dn hN.le
  obtain ⟨s1, s2⟩ := rounds_bounds h.error hq
  have sn := nn _ hq
  set s := rnd (δ / (n - 1))
  obtain ⟨x1, x2⟩ := rounds_bounds h.error (mul_nonneg hj sn)
  set t := (b - a) / ((n : K) - 1) with ht
  have htn : 0 ≤ t := div_nonneg hD hN.le
  have q1 : (1 - u) * t ≤ δ / (n - 1) := by
    rw [ht, ← mul_div_assoc]
    exact div_le_div_of_nonneg_right (by linarith) hN.le
  have q2 : δ / (n - 1) ≤ (1 + u) * t := by
    rw [ht, ← mul_div_assoc]
    exact div_le_div_of_nonneg_right (by linarith) hN.le
  have r1 : (1 - u) * ((1 - u) * t) ≤ s := by
    refine le_trans (mul_le_mul_of_nonneg_left q1 (by linarith)) ?_
    linarith
  have r2 : s ≤ (1 + u) * ((1 + u) * t) := by
    refine le_trans ?_ (mul_le_mul_of_nonneg_left q2 (by linarith))
    linarith
  have jt : 0 ≤ j * t := mul_nonneg hj htn
  refine ⟨?_, ?_, sn⟩
  · have e1 : (1 - u) * (j * ((1 - u) * ((1 - u) * t))) ≤ (1 - u) * (j * s) :=
      mul_le_mul_of_nonneg_left (mul_le_mul_of_nonneg_left r1 hj) (by linarith)
    have e2 : (1 - 4 * u) * (j * t) ≤ (1 - u) * (j * ((1 - u) * ((1 - u) * t))) := by
      have : (1 - u) * (j * ((1 - u) * ((1 - u) * t))) = (1 - u) ^ 3 * (j * t) := by ring
      rw [this]
      apply mul_le_mul_of_nonneg_right _ jt
      nlinarith [sq_nonneg u, mul_nonneg hu0 (sq_nonneg u)]
    linarith
  · have e1 : (1 + u) * (j * s) ≤ (1 + u) * (j * ((1 + u) * ((1 + u) * t))) :=
      mul_le_mul_of_nonneg_left (mul_le_mul_of_nonneg_left r2 hj) (by linarith)
    have e2 : (1 + u) * (j * ((1 + u) * ((1 + u) * t))) ≤ (1 + 4 * u) * (j * t) := by
      have : (1 + u) * (j * ((1 + u) * ((1 + u) * t))) = (1 + u) ^ 3 * (j * t) := by ring
      rw [this]
      apply mul_le_mul_of_nonneg_right _ jt
      nlinarith [sq_nonneg u, mul_nonneg hu0 (sq_nonneg u), mul_nonneg hu0 (sub_nonneg.2 hu1)]
    linarith

theorem gridValue_first (h : FloatRounding rnd u) {a b : K} {n : ℕ} (ha : rnd a = a) :
    gridValue rnd a b n 0 = a := by
  unfold gridValue
  rw [if_neg (by omega)]
  simp [rnd_zero h.error, ha]

theorem gridValue_last {a b : K} {n : ℕ} (hn : 2 ≤ n) : gridValue rnd a b n (n - 1) = b := by
  unfold gridValue
  rw [if_pos (by omega)]

theorem gridValue_facts (h : FloatRounding rnd u) (hu0 : 0 ≤ u) {a b : K}
    (hab : a ≤ b) (ha : rnd a = a) (hb : rnd b = b) {n : ℕ} (hn : 1 ≤ n) (hun : 4 * u * n ≤ 1)
    {j : ℕ} (hj : j < n) :
    a ≤ gridValue rnd a b n j ∧ gridValue rnd a b n j ≤ b ∧
    |gridValue rnd a b n j - (a + j * ((b - a) / (n - 1)))| ≤ u * (max |a| |b| + 4 * (b - a)) := by
  have hn1 : (1 : K) ≤ n := by exact_mod_cast hn
  have hu1 : u ≤ 1 / 4 := by nlinarith
  have hD : 0 ≤ b - a := sub_nonneg.2 hab
  have hM : 0 ≤ max |a| |b| := (abs_nonneg a).trans (le_max_left _ _)
  have hR : 0 ≤ u * (max |a| |b| + 4 * (b - a)) := by positivity
  rcases Nat.lt_or_ge n 2 with hn2 | hn2
  · obtain rfl : n = 1 := by omega
    obtain rfl : j = 0 := by omega
    rw [gridValue_first h ha]
    refine ⟨le_rfl, hab, ?_⟩
    simpa using hR
  have hN : (0 : K) < (n : K) - 1 := by
    have : (1 : K) < n := by exact_mod_cast hn2
    linarith
  by_cases hl : j = n - 1
  · rw [hl, gridValue_last hn2]
    refine ⟨hab, le_rfl, ?_⟩
    have : a + ((n - 1 : ℕ) : K) * ((b - a) / (n - 1)) = b := by
      rw [Nat.cast_sub (by omega)]
      push_cast
      field_simp
      ring
    rw [this, sub_self, abs_zero]
    exact hR
  have hv : gridValue rnd a b n j = rnd (rnd (j * rnd (rnd (b - a) / (n - 1))) + a) := by
    unfold gridValue
    rw [if_neg (by omega)]
  obtain ⟨o1, o2, o3⟩ := offset_bounds h hu0 hu1 hab hn2 j
  rw [hv]
  have hj0 : (0 : K) ≤ j := by positivity
  have o4 : 0 ≤ rnd (j * rnd (rnd (b - a) / (n - 1))) := by
    have := h.mono (mul_nonneg hj0 o3)
    rwa [rnd_zero h.error] at this
  set x := rnd (j * rnd (rnd (b - a) / (n - 1)))
  set t := (b - a) / ((n : K) - 1) with ht
  have htD : ((n : K) - 1) * t = b - a := by rw [ht]; field_simp
  have htn : 0 ≤ t := div_nonneg hD hN.le
  have hjn : (j : K) ≤ n - 2 := by
    have : j + 2 ≤ n := by omega
    have : ((j : K) + 2) ≤ n := by exact_mod_cast this
    linarith
  have hjt : j * t ≤ (n - 2) * t := mul_le_mul_of_nonneg_right hjn htn
  have hxD : x ≤ b - a := by
    have e1 : (1 + 4 * u) * (j * t) ≤ (1 + 4 * u) * ((n - 2) * t) :=
      mul_le_mul_of_nonneg_left hjt (by linarith)
    have e2 : (1 + 4 * u) * ((n - 2) * t) ≤ ((n : K) - 1) * t := by
      rw [← mul_assoc]
      apply mul_le_mul_of_nonneg_right _ htn
      nlinarith
    linarith
  have hlo : a ≤ rnd (x + a) := by
    have := h.mono (by linarith : a ≤ x + a)
    rwa [ha] at this
  have hhi : rnd (x + a) ≤ b := by
    have := h.mono (by linarith : x + a ≤ b)
    rwa [hb] at this
  refine ⟨hlo, hhi, ?_⟩
  have habs : |x + a| ≤ max |a| |b| := by
    rw [abs_le]
    have m1 := le_max_left |a| |b|
    have m2 := le_max_right |a| |b|
    have a1 := neg_abs_le a
    have b1 := le_abs_self b
    constructor <;> linarith
  have e1 : |rnd (x + a) - (x + a)| ≤ u * max |a| |b| :=
    (h.error _).trans (mul_le_mul_of_nonneg_left habs hu0)
  have hjtD : j * t ≤ b - a := by
    have : (n - 2) * t ≤ ((n : K) - 1) * t := mul_le_mul_of_nonneg_right (by linarith) htn
    linarith
  have e2 : |x - j * t| ≤ 4 * u * (b - a) := by
    have : 4 * u * (j * t) ≤ 4 * u * (b - a) := mul_le_mul_of_nonneg_left hjtD (by linarith)
    rw [abs_le]
    constructor <;> nlinarith
  calc |rnd (x + a) - (a + j * t)| = |(rnd (x + a) - (x + a)) + (x - j * t)| := by congr 1; ring
    _ ≤ |rnd (x + a) - (x + a)| + |x - j * t| := abs_add_le _ _
    _ ≤ u * (max |a| |b| + 4 * (b - a)) := by linarith

theorem gridValue_mono (h : FloatRounding rnd u) (hu0 : 0 ≤ u) {a b : K}
    (hab : a ≤ b) (ha : rnd a = a) (hb : rnd b = b) {n : ℕ} (hn : 1 ≤ n) (hun : 4 * u * n ≤ 1)
    {i j : ℕ} (hij : i ≤ j) (hj : j < n) : gridValue rnd a b n i ≤ gridValue rnd a b n j := by
  have hn1 : (1 : K) ≤ n := by exact_mod_cast hn
  have hu1 : u ≤ 1 / 4 := by nlinarith
  by_cases hl : j = n - 1 ∧ 1 < n
  · rw [hl.1, gridValue_last hl.2]
    exact (gridValue_facts h hu0 hab ha hb hn hun (by omega)).2.1
  · rcases Nat.lt_or_ge n 2 with hn2 | hn2
    · obtain rfl : i = j := by omega
      exact le_rfl
    obtain ⟨-, -, o3⟩ := offset_bounds h hu0 hu1 hab hn2 j
    unfold gridValue
    rw [if_neg hl, if_neg (by omega)]
    have hc : (i : K) ≤ j := by exact_mod_cast hij
    have := h.mono (mul_le_mul_of_nonneg_right hc o3)
    exact h.mono (by linarith)

/-- `np.linspace` in floating point. -/
theorem linspaceR_even (h : FloatRounding rnd u) (hu0 : 0 ≤ u) {x y : K} (hxy : x ≤ y) {n : ℕ}
    (hn : 1 ≤ n) (hun : 4 * u * n ≤ 1) :
    NearlyEven (GridRounded.linspace rnd (.fin x) (.fin y) n) (rnd x) (rnd y) n u := by
  have hn1 : (1 : K) ≤ n := by exact_mod_cast hn
  have hu1 : u < 1 := by nlinarith
  have hab := h.mono hxy
  have ha := h.idem x
  have hb := h.idem y
  rw [linspaceR_fin h hu1 x y hn]
  have get : ∀ {j : ℕ} {v : K}, ((List.range n).map fun j =>
      XF.fin (gridValue rnd (rnd x) (rnd y) n j))[j]? = some (.fin v) →
      j < n ∧ v = gridValue rnd (rnd x) (rnd y) n j := by
    intro j v hv
    obtain ⟨hj, e⟩ := List.getElem?_eq_some_iff.1 hv
    simp only [List.length_map, List.length_range] at hj
    simp only [List.getElem_map, List.getElem_range, XF.fin.injEq] at e
    exact ⟨hj, e.symm⟩
  refine ⟨by simp, ?_, ?_, ?_, ?_, ?_⟩
  · rw [List.getElem?_map, List.getElem?_range (by omega)]
    simp [gridValue_first h ha]
  · intro h2
    rw [List.getElem?_map, List.getElem?_range (by omega)]
    simp [gridValue_last h2]
  · intro j hj
    obtain ⟨f1, f2, -⟩ := gridValue_facts h hu0 hab ha hb hn hun hj
    exact ⟨_, by rw [List.getElem?_map, List.getElem?_range hj]; rfl, f1, f2⟩
  · intro i j v w hij hv hw
    obtain ⟨-, rfl⟩ := get hv
    obtain ⟨hj, rfl⟩ := get hw
    exact gridValue_mono h hu0 hab ha hb hn hun hij hj
  · intro j v hv
    obtain ⟨hj, rfl⟩ := get hv
    exact (gridValue_facts h hu0 hab ha hb hn hun hj).2.2

end linspace

/-! ## The constructor -/

/-- What the constructor makes. -/
def Spec.gridOfR (rnd : K → K) (a b : XF K) (nx : ℕ) (c d : XF K) (ny : ℕ) (m : XF K) (nr : ℕ) :
    GridParams K :=
  let rf := GridRounded.linspace rnd (.fin 1) m nr
  let rfArray := rf.reverse ++ rf.tail
  { dx := ⟨[1, nx, 1], GridRounded.linspace rnd a b nx⟩
    dy := ⟨[ny, 1, 1], GridRounded.linspace rnd c d ny⟩
    rf := ⟨[nr], rf⟩
    rfArray := ⟨[rfArray.length], rfArray⟩
    gridShape := (ny, nx, rfArray.length)
    sliceShape := (ny, nx)
    extendable := XF.eqb ((GridRounded.linspace rnd c d ny).headD .nan) (.fin 0) &&
      XF.eqb ((GridRounded.linspace rnd a b nx).headD .nan) (.fin 0) }

theorem linspaceR_length (rnd : K → K) (a b : XF K) (n : ℕ) :
    (GridRounded.linspace rnd a b n).length = n := by
  unfold GridRounded.linspace
  simp only
  split_ifs <;> simp

theorem linspaceR_ne_nil (rnd : K → K) (a b : XF K) {n : ℕ} (hn : 1 ≤ n) :
    GridRounded.linspace rnd a b n ≠ [] := by
  intro h
  have := linspaceR_length rnd a b n
  rw [h] at this
  simp at this
  omega

theorem determineDxR_ok_iff (rnd : K → K) (lo hi cnt : PyVal K) (d : Nd K) :
    GridRounded.determineDx rnd lo hi cnt = .ok d ↔
    ∃ a b n, IsNumber false lo a ∧ IsNumber false hi b ∧ ¬ LessEq b a ∧ Count cnt n ∧
      d = ⟨[1, n, 1], GridRounded.linspace rnd a b n⟩ :=
  axis_ok_iff lo hi cnt (fun a b n => ⟨[1, n, 1], GridRounded.linspace rnd a b n⟩) d

theorem determineDyR_ok_iff (rnd : K → K) (lo hi cnt : PyVal K) (d : Nd K) :
    GridRounded.determineDy rnd lo hi cnt = .ok d ↔
    ∃ a b n, IsNumber false lo a ∧ IsNumber false hi b ∧ ¬ LessEq b a ∧ Count cnt n ∧
      d = ⟨[n, 1, 1], GridRounded.linspace rnd a b n⟩ :=
  axis_ok_iff lo hi cnt (fun a b n => ⟨[n, 1, 1], GridRounded.linspace rnd a b n⟩) d

theorem determineRfR_ok_iff (rnd : K → K) (m cnt : PyVal K) (d : Nd K × Nd K) :
    GridRounded.determineRf rnd m cnt = .ok d ↔
    ∃ x n, IsNumber false m x ∧ ¬ Less x (.fin 1) ∧ Count cnt n ∧
      d = (⟨[n], GridRounded.linspace rnd (.fin 1) x n⟩,
        ⟨[((GridRounded.linspace rnd (.fin 1) x n).reverse ++
            (GridRounded.linspace rnd (.fin 1) x n).tail).length],
          (GridRounded.linspace rnd (.fin 1) x n).reverse ++
            (GridRounded.linspace rnd (.fin 1) x n).tail⟩) := by
  have h1' : IsNumber false (.int 1 : PyVal K) (.fin 1) := Or.inl ⟨1, .int 1, by simp⟩
  unfold GridRounded.determineRf
  constructor
  · intro h
    cases h1 : number m (.bool false) (.int 1) with
    | error e => simp only [h1, bind, Except.bind] at h; cases h
    | ok w1 =>
    cases h3 : number cnt (.bool true) (.int 1) with
    | error e => simp only [h1, h3, bind, Except.bind] at h; cases h
    | ok w3 =>
    simp only [h1, h3, bind, Except.bind] at h
    obtain ⟨rfl, x1, n1, hx⟩ := (number_lower false _ _ _ _ h1').1 h1
    obtain ⟨rfl, n, hn⟩ := (number_count _ _).1 h3
    rw [count_toInt hn, isNumber_num n1] at h
    exact ⟨x1, n, n1, hx, hn, by cases h; rfl⟩
  · rintro ⟨x, n, h1, h2, h4, rfl⟩
    rw [(number_lower false m m _ _ h1').2 ⟨rfl, x, h1, h2⟩,
      (number_count cnt cnt).2 ⟨rfl, n, h4⟩]
    simp only [bind, Except.bind, count_toInt h4, isNumber_num h1]

/-- The constructor succeeds exactly on these arguments, with this result. -/
theorem newR_ok_iff (rnd : K → K) (minX maxX numX minY maxY numY maxRf numRf : PyVal K)
    (g : GridParams K) :
    GridRounded.new rnd minX maxX numX minY maxY numY maxRf numRf = .ok g ↔
    ∃ a b nx c d ny m nr,
      (IsNumber false minX a ∧ IsNumber false maxX b ∧ ¬ LessEq b a ∧ Count numX nx) ∧
      (IsNumber false minY c ∧ IsNumber false maxY d ∧ ¬ LessEq d c ∧ Count numY ny) ∧
      (IsNumber false maxRf m ∧ ¬ Less m (.fin 1) ∧ Count numRf nr) ∧
      g = gridOfR rnd a b nx c d ny m nr := by
  unfold GridRounded.new
  constructor
  · intro h
    cases h1 : GridRounded.determineDx rnd minX maxX numX with
    | error e => simp only [h1, bind, Except.bind] at h; cases h
    | ok w1 =>
    cases h2 : GridRounded.determineDy rnd minY maxY numY with
    | error e => simp only [h1, h2, bind, Except.bind] at h; cases h
    | ok w2 =>
    cases h3 : GridRounded.determineRf rnd maxRf numRf with
    | error e => simp only [h1, h2, h3, bind, Except.bind] at h; cases h
    | ok w3 =>
    obtain ⟨a, b, nx, p1, p2, p3, p4, rfl⟩ := (determineDxR_ok_iff _ _ _ _ _).1 h1
    obtain ⟨c, d, ny, q1, q2, q3, q4, rfl⟩ := (determineDyR_ok_iff _ _ _ _ _).1 h2
    obtain ⟨m, nr, r1, r2, r3, rfl⟩ := (determineRfR_ok_iff _ _ _ _).1 h3
    simp only [h1, h2, h3, bind, Except.bind] at h
    rw [setExtendable_cons _ (linspaceR_ne_nil _ _ _ p4.1) (linspaceR_ne_nil _ _ _ q4.1)] at h
    refine ⟨a, b, nx, c, d, ny, m, nr, ⟨p1, p2, p3, p4⟩, ⟨q1, q2, q3, q4⟩, ⟨r1, r2, r3⟩, ?_⟩
    cases h
    simp only [GridParams.setShapes, gridOfR, linspaceR_length]
  · rintro ⟨a, b, nx, c, d, ny, m, nr, ⟨p1, p2, p3, p4⟩, ⟨q1, q2, q3, q4⟩, ⟨r1, r2, r3⟩, rfl⟩
    rw [(determineDxR_ok_iff _ _ _ _ _).2 ⟨a, b, nx, p1, p2, p3, p4, rfl⟩,
      (determineDyR_ok_iff _ _ _ _ _).2 ⟨c, d, ny, q1, q2, q3, q4, rfl⟩,
      (determineRfR_ok_iff _ _ _ _).2 ⟨m, nr, r1, r2, r3, rfl⟩]
    simp only [bind, Except.bind]
    rw [setExtendable_cons _ (linspaceR_ne_nil _ _ _ p4.1) (linspaceR_ne_nil _ _ _ q4.1)]
    simp only [GridParams.setShapes, gridOfR, linspaceR_length]

/-- **C92** Whatever the rounding: the constructor accepts the same arguments as without rounding,
and with finite limits and at most `1 / (4 u)` points per axis (`2^51` in binary64) the vectors run
in order from the one limit to the other, never leave them, and stay within a few rounding errors
of an even division.  The limits are those given, as floats. -/
theorem C92_vectors {rnd : K → K} {u : K} (h : FloatRounding rnd u) (hu0 : 0 ≤ u)
    (minX maxX numX minY maxY numY maxRf numRf : PyVal K)
    (a b c d m : K) (nx ny nr : ℕ)
    (ha : IsNumber false minX (.fin a)) (hb : IsNumber false maxX (.fin b)) (hnx : Count numX nx)
    (hc : IsNumber false minY (.fin c)) (hd : IsNumber false maxY (.fin d)) (hny : Count numY ny)
    (hm : IsNumber false maxRf (.fin m)) (hnr : Count numRf nr) :
    ((∃ g, GridRounded.new rnd minX maxX numX minY maxY numY maxRf numRf = .ok g) ↔
      a < b ∧ c < d ∧ 1 ≤ m) ∧
    ∀ g, GridRounded.new rnd minX maxX numX minY maxY numY maxRf numRf = .ok g →
      (4 * u * nx ≤ 1 → NearlyEven g.dx.data (rnd a) (rnd b) nx u) ∧
      (4 * u * ny ≤ 1 → NearlyEven g.dy.data (rnd c) (rnd d) ny u) ∧
      (4 * u * nr ≤ 1 → NearlyEven g.rf.data 1 (rnd m) nr u) ∧
      g.rfArray.data = g.rf.data.reverse ++ g.rf.data.tail := by
  have key : ∀ x y : K, ¬ LessEq (.fin y) (.fin x) ↔ x < y := by
    intro x y; rw [lessEq_iff]; simp
  have key' : ∀ x y : K, ¬ Less (.fin y) (.fin x) ↔ x ≤ y := by
    intro x y; rw [less_iff]; simp
  constructor
  · constructor
    · rintro ⟨g, hg⟩
      obtain ⟨a', b', nx', c', d', ny', m', nr', ⟨p1, p2, p3, p4⟩, ⟨q1, q2, q3, q4⟩, ⟨r1, r2, r3⟩, -⟩ :=
        (newR_ok_iff ..).1 hg
      obtain rfl := isNumber_unique p1 ha
      obtain rfl := isNumber_unique p2 hb
      obtain rfl := isNumber_unique q1 hc
      obtain rfl := isNumber_unique q2 hd
      obtain rfl := isNumber_unique r1 hm
      exact ⟨(key _ _).1 p3, (key _ _).1 q3, (key' _ _).1 r2⟩
    · rintro ⟨h1, h2, h3⟩
      exact ⟨_, (newR_ok_iff ..).2 ⟨_, _, _, _, _, _, _, _, ⟨ha, hb, (key _ _).2 h1, hnx⟩,
        ⟨hc, hd, (key _ _).2 h2, hny⟩, ⟨hm, (key' _ _).2 h3, hnr⟩, rfl⟩⟩
  · intro g hg
    obtain ⟨a', b', nx', c', d', ny', m', nr', ⟨p1, p2, p3, p4⟩, ⟨q1, q2, q3, q4⟩, ⟨r1, r2, r3⟩, rfl⟩ :=
      (newR_ok_iff ..).1 hg
    obtain rfl := isNumber_unique p1 ha
    obtain rfl := isNumber_unique p2 hb
    obtain rfl := isNumber_unique q1 hc
    obtain rfl := isNumber_unique q2 hd
    obtain rfl := isNumber_unique r1 hm
    obtain rfl := count_unique p4 hnx
    obtain rfl := count_unique q4 hny
    obtain rfl := count_unique r3 hnr
    refine ⟨linspaceR_even h hu0 ((key _ _).1 p3).le p4.1,
      linspaceR_even h hu0 ((key _ _).1 q3).le q4.1, ?_, rfl⟩
    intro hn
    have := linspaceR_even h hu0 ((key' _ _).1 r2) r3.1 hn
    rwa [h.one] at this

/-- The hypotheses of C92 are met in binary64, by a vector that is rounded: `0.1` to `0.7`. -/
example : FloatRounding toDouble (1 / 2 ^ 53) ∧
    (∃ g, GridRounded.new (K := ℚ) toDouble (.float (.fin (1 / 10))) (.float (.fin (7 / 10))) (.int 7)
      (.int 0) (.int 1) (.int 4) (.int 2) (.int 3) = .ok g) ∧
    4 * (1 / 2 ^ 53 : ℚ) * 7 ≤ 1 := by
  refine ⟨toDouble_rounding, ?_, by norm_num⟩
  exact ⟨_, (newR_ok_iff ..).2 ⟨_, _, _, _, _, _, _, _,
    ⟨Or.inr ⟨rfl, .float _⟩, Or.inr ⟨rfl, .float _⟩, by rw [lessEq_iff]; simp; norm_num, by norm_num, .int 7⟩,
    ⟨Or.inl ⟨0, .int 0, rfl⟩, Or.inl ⟨1, .int 1, rfl⟩, by rw [lessEq_iff]; simp, by norm_num, .int 4⟩,
    ⟨Or.inl ⟨2, .int 2, rfl⟩, by rw [less_iff]; simp, by norm_num, .int 3⟩, rfl⟩⟩

/-- **C92** If the points are farther apart than twice the rounding error, no two are equal. -/
theorem C92_distinct {l : List (XF K)} {a b u : K} {n : ℕ} (h : NearlyEven l a b n u)
    (hs : 2 * (u * (max |a| |b| + 4 * (b - a))) < (b - a) / (n - 1)) (i j : ℕ) (v w : K)
    (hij : i < j) (hv : l[i]? = some (.fin v)) (hw : l[j]? = some (.fin w)) : v < w := by
  have h1 := abs_le.1 (h.near i v hv)
  have h2 := abs_le.1 (h.near j w hw)
  have hc : (i : K) + 1 ≤ j := by exact_mod_cast hij
  have hn0 : 0 ≤ u * (max |a| |b| + 4 * (b - a)) := (abs_nonneg _).trans (h.near i v hv)
  have ht : 0 ≤ (b - a) / ((n : K) - 1) := by linarith
  have := mul_le_mul_of_nonneg_right hc ht
  linarith [h1.1, h1.2, h2.1, h2.2]

/-- The hypothesis of `C92_distinct` is met by four points from 0 to 1 in binary64. -/
example : 2 * ((1 / 2 ^ 53 : ℚ) * (max |0| |1| + 4 * (1 - 0))) < (1 - 0) / ((4 : ℕ) - 1) := by
  norm_num

/-- Otherwise they can be: in binary64 the first two of ten points from `2^53` to `2^53 + 4`. -/
theorem C92_equal_points : ∃ (g : GridParams ℚ) (v : XF ℚ),
    GridRounded.new toDouble (.int (2 ^ 53)) (.int (2 ^ 53 + 4)) (.int 10)
      (.int 0) (.int 1) (.int 2) (.int 2) (.int 2) = .ok g ∧
    g.dx.data[0]? = some v ∧ g.dx.data[1]? = some v := by
  refine ⟨gridOfR toDouble (.fin (2 ^ 53)) (.fin (2 ^ 53 + 4)) 10 (.fin 0) (.fin 1) 2 (.fin 2) 2,
    .fin (2 ^ 53), ?_⟩
  decide +kernel

/-! ## `extend_grid` -/

/-- `l'` is `l` mirrored about zero, up to an error of `e`. -/
structure Spec.NearlyMirrored (l l' : List (XF K)) (n : ℕ) (e : K) : Prop where
  length : l.length = n
  length' : l'.length = 2 * n - 1
  values : ∀ j < n, ∃ v w z : K, l[j]? = some (.fin v) ∧ l'[n - 1 + j]? = some (.fin w) ∧
    l'[n - 1 - j]? = some (.fin z) ∧ |w - v| ≤ e ∧ |z + v| ≤ e

section extend
variable {rnd : K → K} {u : K}

theorem linspaceR_head (h : FloatRounding rnd u) (hu : u < 1) (a b : K) {n : ℕ} (hn : 1 ≤ n) :
    (GridRounded.linspace rnd (.fin a) (.fin b) n).headD .nan = .fin (rnd a) := by
  rw [List.headD_eq_head?_getD, List.head?_eq_getElem?, linspaceR_fin h hu a b hn,
    List.getElem?_map, List.getElem?_range (by omega)]
  simp [gridValue_first h (h.idem a)]

theorem lastOf_linspaceR (h : FloatRounding rnd u) (hu : u < 1) (a b : K) {n : ℕ} (hn : 2 ≤ n)
    (sh : List ℕ) : GridParams.lastOf ⟨sh, GridRounded.linspace rnd (.fin a) (.fin b) n⟩ =
      .ok (.npFloat .w64 (.fin (rnd b))) := by
  unfold GridParams.lastOf
  rw [List.getLast?_eq_getElem?, linspaceR_length, linspaceR_fin h hu a b (by omega),
    List.getElem?_map, List.getElem?_range (by omega)]
  simp [gridValue_last hn]

theorem linspaceR_mirrored (h : FloatRounding rnd u) (hu0 : 0 ≤ u) {x : K} (hx : 0 ≤ x) {n : ℕ}
    (hn : 2 ≤ n) (hun : 8 * u * n ≤ 1) :
    NearlyMirrored (GridRounded.linspace rnd (.fin 0) (.fin x) n)
      (GridRounded.linspace rnd (.fin (-rnd x)) (.fin (rnd x)) (2 * n - 1)) n (14 * u * rnd x) := by
  have hn1 : (2 : K) ≤ n := by exact_mod_cast hn
  have hm0 : 0 ≤ rnd x := by
    have := h.mono hx
    rwa [rnd_zero h.error] at this
  have hc : ((2 * n - 1 : ℕ) : K) = 2 * n - 1 := by
    rw [Nat.cast_sub (by omega)]; push_cast; ring
  have e1 := linspaceR_even h hu0 hx (by omega : 1 ≤ n) (by nlinarith)
  have e2 := linspaceR_even h hu0 (by linarith : -rnd x ≤ rnd x) (by omega : 1 ≤ 2 * n - 1)
    (by rw [hc]; nlinarith)
  rw [rnd_zero h.error] at e1
  rw [h.neg, h.idem] at e2
  refine ⟨e1.length, e2.length, ?_⟩
  intro j hj
  obtain ⟨v, hv, -⟩ := e1.inside j hj
  obtain ⟨w, hw, -⟩ := e2.inside (n - 1 + j) (by omega)
  obtain ⟨z, hz, -⟩ := e2.inside (n - 1 - j) (by omega)
  have b1 := abs_le.1 (e1.near j v hv)
  have b2 := abs_le.1 (e2.near _ w hw)
  have b3 := abs_le.1 (e2.near _ z hz)
  have hN : (n : K) - 1 ≠ 0 := (by linarith : (0 : K) < n - 1).ne'
  have c1 : ((n - 1 + j : ℕ) : K) * ((rnd x - -rnd x) / (((2 * n - 1 : ℕ) : K) - 1)) =
      rnd x + j * (rnd x / (n - 1)) := by
    rw [hc, Nat.cast_add, Nat.cast_sub (by omega)]
    push_cast
    rw [show (2 * (n : K) - 1 - 1) = 2 * (n - 1) by ring]
    field_simp
    ring
  have c2 : ((n - 1 - j : ℕ) : K) * ((rnd x - -rnd x) / (((2 * n - 1 : ℕ) : K) - 1)) =
      rnd x - j * (rnd x / (n - 1)) := by
    rw [hc, Nat.cast_sub (by omega), Nat.cast_sub (by omega)]
    push_cast
    rw [show (2 * (n : K) - 1 - 1) = 2 * (n - 1) by ring]
    field_simp
    ring
  rw [c1] at b2
  rw [c2] at b3
  rw [abs_neg, max_self, abs_of_nonneg hm0] at b2 b3
  rw [abs_zero, max_eq_right (abs_nonneg _), abs_of_nonneg hm0, sub_zero] at b1
  refine ⟨v, w, z, hv, hw, hz, ?_, ?_⟩ <;> rw [abs_le] <;> constructor <;>
    linarith [b1.1, b1.2, b2.1, b2.2, b3.1, b3.2]

theorem gridOfR_extendable (h : FloatRounding rnd u) (hu : u < 1) {a b c d : K} {nx ny : ℕ}
    (hx : 1 ≤ nx) (hy : 1 ≤ ny) (m : XF K) (nr : ℕ) :
    (gridOfR rnd (.fin a) (.fin b) nx (.fin c) (.fin d) ny m nr).extendable = true ↔
      a = 0 ∧ c = 0 := by
  simp only [gridOfR]
  rw [linspaceR_head h hu a b hx, linspaceR_head h hu c d hy]
  simp only [XF.eqb_fin, Bool.and_eq_true, decide_eq_true_eq, rnd_eq_zero h.error hu]
  exact and_comm

theorem rnd_pos (h : FloatRounding rnd u) (hu : u < 1) {x : K} (hx : 0 < x) : 0 < rnd x := by
  have h1 := h.mono hx.le
  rw [rnd_zero h.error] at h1
  exact lt_of_le_of_ne h1 fun h0 => hx.ne' ((rnd_eq_zero h.error hu).1 h0.symm)

theorem extendGridR_ok (h : FloatRounding rnd u) (hu : u < 1) {x y : K} (hx0 : 0 < x) (hy0 : 0 < y)
    {nx ny : ℕ} (hx : 2 ≤ nx) (hy : 2 ≤ ny) (m : XF K) (nr : ℕ) :
    GridRounded.extendGrid rnd (gridOfR rnd (.fin 0) (.fin x) nx (.fin 0) (.fin y) ny m nr) =
      (.ok (), gridOfR rnd (.fin (-rnd x)) (.fin (rnd x)) (2 * nx - 1) (.fin (-rnd y)) (.fin (rnd y))
        (2 * ny - 1) m nr) := by
  have hneg : ∀ z : K, 0 < z → ¬ LessEq (.fin z) (.fin (-z)) := by
    intro z hz; rw [lessEq_iff]; simp; linarith
  have hdx : GridRounded.determineDx rnd (.npFloat .w64 (.fin (-rnd x))) (.npFloat .w64 (.fin (rnd x)))
      (.int (2 * (nx : ℤ) - 1)) = .ok ⟨[1, 2 * nx - 1, 1],
        GridRounded.linspace rnd (.fin (-rnd x)) (.fin (rnd x)) (2 * nx - 1)⟩ :=
    (determineDxR_ok_iff _ _ _ _ _).2 ⟨_, _, _, isNum_float64 _, isNum_float64 _,
      hneg _ (rnd_pos h hu hx0), count_int (by omega), rfl⟩
  have hdy : GridRounded.determineDy rnd (.npFloat .w64 (.fin (-rnd y))) (.npFloat .w64 (.fin (rnd y)))
      (.int (2 * (ny : ℤ) - 1)) = .ok ⟨[2 * ny - 1, 1, 1],
        GridRounded.linspace rnd (.fin (-rnd y)) (.fin (rnd y)) (2 * ny - 1)⟩ :=
    (determineDyR_ok_iff _ _ _ _ _).2 ⟨_, _, _, isNum_float64 _, isNum_float64 _,
      hneg _ (rnd_pos h hu hy0), count_int (by omega), rfl⟩
  unfold GridRounded.extendGrid
  simp only [Meth.get_bind]
  rw [(gridOfR_extendable h hu (by omega) (by omega) m nr).2 ⟨rfl, rfl⟩]
  simp only [Bool.not_true, Bool.false_eq_true, if_false]
  simp only [gridOfR]
  rw [lastOf_linspaceR h hu _ _ hx, lastOf_linspaceR h hu _ _ hy]
  simp only [Meth.lift_ok_bind, GridParams.negVal, PyVal.num_npFloat, XF.neg]
  rw [hdx]
  simp only [Meth.lift_ok_bind, Meth.modify_bind]
  rw [hdy]
  simp only [Meth.lift_ok_bind, Meth.modify_bind, Meth.get_bind]
  rw [setExtendable_cons _ (linspaceR_ne_nil _ _ _ (by omega)) (linspaceR_ne_nil _ _ _ (by omega))]
  simp only [Meth.lift_ok_bind, Meth.set_apply, GridParams.setShapes, linspaceR_length]

/-- **C93 (partial)** Whatever the rounding: a grid with finite limits that starts at the origin
and has at least two and at most `1 / (8 u)` points per axis can be extended, and each value of the
extended vectors lies within `14 u` times the limit of the mirror image.  The extended vectors are
again in order and within the limits.  Missing for the full claim: that they are the mirror
image, which is false (`C93_false`). -/
theorem C93_extend_partial (h : FloatRounding rnd u) (hu0 : 0 ≤ u)
    (minX maxX numX minY maxY numY maxRf numRf : PyVal K)
    (b d : K) (nx ny : ℕ) (g : GridParams K)
    (ha : IsNumber false minX (.fin 0)) (hb : IsNumber false maxX (.fin b)) (hnx : Count numX nx)
    (hc : IsNumber false minY (.fin 0)) (hd : IsNumber false maxY (.fin d)) (hny : Count numY ny)
    (hx : 2 ≤ nx) (hy : 2 ≤ ny) (hux : 8 * u * nx ≤ 1) (huy : 8 * u * ny ≤ 1)
    (hg : GridRounded.new rnd minX maxX numX minY maxY numY maxRf numRf = .ok g) :
    ∃ g', GridRounded.extendGrid rnd g = (.ok (), g') ∧
      NearlyMirrored g.dx.data g'.dx.data nx (14 * u * rnd b) ∧
      NearlyMirrored g.dy.data g'.dy.data ny (14 * u * rnd d) ∧
      NearlyEven g'.dx.data (-rnd b) (rnd b) (2 * nx - 1) u ∧
      NearlyEven g'.dy.data (-rnd d) (rnd d) (2 * ny - 1) u ∧
      g'.rf = g.rf ∧ g'.rfArray = g.rfArray ∧ g'.extendable = false := by
  have key : ∀ x y : K, ¬ LessEq (.fin y) (.fin x) ↔ x < y := by
    intro x y; rw [lessEq_iff]; simp
  obtain ⟨a', b', nx', c', d', ny', m', nr', ⟨p1, p2, p3, p4⟩, ⟨q1, q2, q3, q4⟩, ⟨r1, r2, r3⟩, rfl⟩ :=
    (newR_ok_iff ..).1 hg
  obtain rfl := isNumber_unique p1 ha
  obtain rfl := isNumber_unique p2 hb
  obtain rfl := isNumber_unique q1 hc
  obtain rfl := isNumber_unique q2 hd
  obtain rfl := count_unique p4 hnx
  obtain rfl := count_unique q4 hny
  have hnx' : (2 : K) ≤ nx' := by exact_mod_cast hx
  have hny' : (2 : K) ≤ ny' := by exact_mod_cast hy
  have hu : u < 1 := by nlinarith
  have hb0 := (key _ _).1 p3
  have hd0 := (key _ _).1 q3
  have hrb := rnd_pos h hu hb0
  have hrd := rnd_pos h hu hd0
  have cast : ∀ {n : ℕ}, 2 ≤ n → ((2 * n - 1 : ℕ) : K) = 2 * n - 1 := by
    intro n hn; rw [Nat.cast_sub (by omega)]; push_cast; ring
  have even : ∀ {n : ℕ} {x : K}, 2 ≤ n → 8 * u * n ≤ 1 → 0 < rnd x →
      NearlyEven (GridRounded.linspace rnd (.fin (-rnd x)) (.fin (rnd x)) (2 * n - 1))
        (-rnd x) (rnd x) (2 * n - 1) u := by
    intro n x hn hun hx
    have := linspaceR_even h hu0 (by linarith : -rnd x ≤ rnd x) (by omega : 1 ≤ 2 * n - 1)
      (by rw [cast hn]; nlinarith)
    rwa [h.neg, h.idem] at this
  refine ⟨_, extendGridR_ok h hu hb0 hd0 hx hy _ _, linspaceR_mirrored h hu0 hb0.le hx hux,
    linspaceR_mirrored h hu0 hd0.le hy huy, even hx hux hrb, even hy huy hrd, rfl, rfl, ?_⟩
  rw [← Bool.not_eq_true, gridOfR_extendable h hu (by omega) (by omega)]
  rintro ⟨h1, -⟩
  linarith

end extend

/-- The hypotheses of C93 are met in binary64. -/
example : ∃ g, GridRounded.new (K := ℚ) toDouble (.int 0) (.int 1) (.int 50) (.int 0) (.int 1) (.int 50)
    (.int 2) (.int 2) = .ok g ∧ 8 * (1 / 2 ^ 53 : ℚ) * (50 : ℕ) ≤ 1 := by
  refine ⟨gridOfR toDouble (.fin 0) (.fin 1) 50 (.fin 0) (.fin 1) 50 (.fin 2) 2, ?_, by norm_num⟩
  decide +kernel

/-- **C93 is false**: in binary64, fifty points from 0 to 1 extend to ninety-nine points of which
the middle one is not zero (`49 * (1 / 49)` is not one), and they are not the mirror image. -/
theorem C93_false : ∃ (g g' : GridParams ℚ) (v : ℚ),
    GridRounded.new toDouble (.int 0) (.int 1) (.int 50) (.int 0) (.int 1) (.int 50)
      (.int 2) (.int 2) = .ok g ∧
    GridRounded.extendGrid toDouble g = (.ok (), g') ∧
    g.dx.data[0]? = some (.fin 0) ∧ g'.dx.data[49]? = some (.fin v) ∧ v < 0 ∧
    ¬ Mirrored g.dx.data g'.dx.data 50 := by
  have hu : (1 / 2 ^ 53 : ℚ) < 1 := by norm_num
  have h0 : (gridOfR toDouble (.fin 0) (.fin 1) 50 (.fin 0) (.fin 1) 50 (.fin 2) 2).dx.data[0]? =
      some (.fin 0) := by decide +kernel
  have e := extendGridR_ok toDouble_rounding hu (x := 1) (y := 1) one_pos one_pos
    (nx := 50) (ny := 50) (by norm_num) (by norm_num) (.fin 2) 2
  have hv : (gridOfR toDouble (.fin (-toDouble 1)) (.fin (toDouble 1)) (2 * 50 - 1)
      (.fin (-toDouble 1)) (.fin (toDouble 1)) (2 * 50 - 1) (.fin 2) 2).dx.data[49]? =
      some (.fin (toDouble (toDouble (49 * toDouble (2 / 98)) + -1))) := by decide +kernel
  have hneg : toDouble (toDouble (49 * toDouble (2 / 98)) + -1) < 0 := by decide +kernel
  refine ⟨_, _, _, by decide +kernel, e, h0, hv, hneg, ?_⟩
  intro hm
  obtain ⟨v, h1, h2, -⟩ := hm.values 0 (by norm_num)
  rw [h0] at h1
  obtain rfl : (0 : ℚ) = v := by simpa using h1
  have h2' : (some (XF.fin (toDouble (toDouble (49 * toDouble (2 / 98)) + -1))) : Option (XF ℚ)) =
      some (.fin 0) := hv.symm.trans h2
  simp only [Option.some.injEq, XF.fin.injEq] at h2'
  linarith

end Beyonce
