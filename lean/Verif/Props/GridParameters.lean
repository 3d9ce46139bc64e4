import Verif.GridParameters
import Verif.Props.Validate

/-!
# Properties C21 – C24: the vectors of `GridParameters`
-/

set_option linter.unusedSectionVars false

namespace Beyonce
open Spec
variable {K : Type} [Field K] [LinearOrder K]

/-- `l` has `n` values: `a`, `a + h`, …, up to `b`, with a positive step `h`. For `n = 1` it is
just `a`. -/
structure Spec.Evenly (l : List (XF K)) (a b : K) (n : ℕ) : Prop where
  length : l.length = n
  first : l[0]? = some (.fin a)
  last : 2 ≤ n → l[n - 1]? = some (.fin b)
  step : ∃ h : K, 0 < h ∧ ∀ j < n, l[j]? = some (.fin (a + j * h))

/-- The argument is a count of at least one. -/
def Spec.Count (v : PyVal K) (n : ℕ) : Prop := 1 ≤ n ∧ IsInteger v n

variable [IsStrictOrderedRing K]

theorem linspace_one (a b : K) : linspace (.fin a) (.fin b) 1 = [.fin a] := by
  simp [linspace, XF.sub, XF.neg, XF.add, XF.mul]

theorem linspace_fin (a b : K) {n : ℕ} (hn : 2 ≤ n) :
    linspace (.fin a) (.fin b) n =
      (List.range n).map fun j : ℕ => .fin (a + j * ((b - a) / (n - 1))) := by
  have hn' : 1 < n := hn
  have hd : (n : K) - 1 ≠ 0 := by
    have : (1 : K) < n := by exact_mod_cast hn'
    linarith [this] |> fun h : (0 : K) < n - 1 => h.ne'
  apply List.ext_getElem?
  intro j
  have hb : a + ((n - 1 : ℕ) : K) * ((b - a) / (n - 1)) = b := by
    rw [Nat.cast_sub (by omega)]
    push_cast
    field_simp
    ring
  simp only [linspace, XF.sub, XF.neg, XF.add, ← sub_eq_add_neg, XF.div, hd, if_false, XF.mul,
    XF.eqb_fin, hn', if_true]
  rw [List.getElem?_set]
  by_cases hj : n - 1 = j
  · subst hj
    rw [if_pos rfl, if_pos (by simp; omega), List.getElem?_map, List.getElem?_range (by omega)]
    simp only [Option.map_some, hb]
  · rw [if_neg hj]
    congr 2
    funext k
    split_ifs with h0
    · have h0' : (b - a) / ((n : K) - 1) = 0 := by simpa using h0
      have : b - a = 0 := by
        rcases div_eq_zero_iff.1 h0' with h | h
        · exact h
        · exact absurd h hd
      rw [this]; simp
    · congr 1; ring

theorem linspace_length (a b : XF K) (n : ℕ) : (linspace a b n).length = n := by
  unfold linspace
  simp only
  split_ifs <;> simp

theorem linspace_evenly {a b : K} (hab : a < b) {n : ℕ} (hn : 1 ≤ n) :
    Evenly (linspace (.fin a) (.fin b) n) a b n := by
  rcases Nat.lt_or_ge n 2 with h | h
  · obtain rfl : n = 1 := by omega
    rw [linspace_one]
    exact ⟨rfl, rfl, by omega, 1, one_pos, by intro j hj; obtain rfl : j = 0 := by omega
                                              simp⟩
  · have hd : (0 : K) < (n : K) - 1 := by
      have : (1 : K) < n := by exact_mod_cast h
      linarith
    refine ⟨linspace_length _ _ _, ?_, ?_, (b - a) / (n - 1), div_pos (sub_pos.2 hab) hd, ?_⟩
    · rw [linspace_fin a b h, List.getElem?_map, List.getElem?_range (by omega)]
      simp
    · intro _
      rw [linspace_fin a b h, List.getElem?_map, List.getElem?_range (by omega)]
      simp only [Option.map_some, Option.some.injEq, XF.fin.injEq]
      rw [Nat.cast_sub (by omega)]
      push_cast
      field_simp
      ring
    · intro j hj
      rw [linspace_fin a b h, List.getElem?_map, List.getElem?_range hj]
      simp

/-! ## The constructor -/

theorem number_default (v w : PyVal K) : number v = .ok w ↔ w = v ∧ ∃ x, IsNumber false v x := by
  rw [show number v = number v (.bool false) (.float .ninf) (.float .pinf) (.bool false) from rfl,
    C01_number_ok_iff]
  constructor
  · rintro ⟨h, x, l, u, hx, -⟩; exact ⟨h, x, hx⟩
  · rintro ⟨h, x, hx⟩
    refine ⟨h, x, .ninf, .pinf, hx, Or.inr ⟨rfl, .float _⟩, Or.inr ⟨rfl, .float _⟩, ?_, ?_⟩
    · rw [less_iff]; simp
    · simp only [Violates, less_iff]; simp

theorem number_lower (ci : Bool) (v w lo : PyVal K) (l : XF K) (hl : IsNumber false lo l) :
    number v (.bool ci) lo = .ok w ↔ w = v ∧ ∃ x, IsNumber ci v x ∧ ¬ Less x l := by
  rw [show number v (.bool ci) lo = number v (.bool ci) lo (.float .pinf) (.bool false) from rfl,
    C01_number_ok_iff]
  have hpl : ¬ Less .pinf l := by rw [less_iff]; simp
  constructor
  · rintro ⟨h, x, l', u, hx, hl', -, -, hv⟩
    have e : l' = l := by rw [← isNumber_num hl', ← isNumber_num hl]
    subst e
    refine ⟨h, x, hx, ?_⟩
    simp only [Violates] at hv
    intro hlt; exact hv (Or.inl hlt)
  · rintro ⟨h, x, hx, hxl⟩
    refine ⟨h, x, l, .pinf, hx, hl, Or.inr ⟨rfl, .float _⟩, hpl, ?_⟩
    simp only [Violates]
    rintro (h | h)
    · exact hxl h
    · rw [less_iff] at h; simp at h

theorem number_count (v w : PyVal K) :
    number v (.bool true) (.int 1) = .ok w ↔ w = v ∧ ∃ n, Count v n := by
  rw [number_lower true v w (.int 1) (.fin 1) (Or.inl ⟨1, .int 1, by simp⟩)]
  constructor
  · rintro ⟨h, x, (⟨n, hn, rfl⟩ | ⟨h', -⟩), hx⟩
    · rw [less_iff] at hx
      simp only [XF.lt_fin, decide_eq_true_eq, not_lt] at hx
      have : (1 : ℤ) ≤ n := by exact_mod_cast hx
      refine ⟨h, n.toNat, by omega, ?_⟩
      rw [Int.toNat_of_nonneg (by omega)]; exact hn
    · cases h'
  · rintro ⟨h, n, h1, hn⟩
    refine ⟨h, .fin n, Or.inl ⟨n, hn, by simp⟩, ?_⟩
    rw [less_iff]
    simp only [XF.lt_fin, decide_eq_true_eq, not_lt]
    exact_mod_cast h1

theorem count_toInt {v : PyVal K} {n : ℕ} (h : Count v n) : v.toInt.toNat = n := by
  obtain ⟨-, h⟩ := h
  generalize hz : (n : ℤ) = z at h
  cases h <;> simp_all [PyVal.toInt] <;> omega

theorem axis_ok_iff (lo hi cnt : PyVal K) (f : XF K → XF K → ℕ → Nd K) (d : Nd K) :
    (do
      let minX ← number lo
      let maxX ← number hi
      if XF.le maxX.num minX.num then .error .valueError
      else
        let numX ← number cnt (.bool true) (.int 1)
        let n := numX.toInt.toNat
        .ok (f minX.num maxX.num n) : Except Err (Nd K)) = .ok d ↔
    ∃ a b n, IsNumber false lo a ∧ IsNumber false hi b ∧ ¬ LessEq b a ∧ Count cnt n ∧
      d = f a b n := by
  constructor
  · intro h
    cases h1 : number lo with
    | error e => simp only [h1, bind, Except.bind] at h; cases h
    | ok w1 =>
    cases h2 : number hi with
    | error e => simp only [h1, h2, bind, Except.bind] at h; cases h
    | ok w2 =>
    simp only [h1, h2, bind, Except.bind] at h
    obtain ⟨rfl, x1, n1⟩ := (number_default _ _).1 h1
    obtain ⟨rfl, x2, n2⟩ := (number_default _ _).1 h2
    rw [isNumber_num n1, isNumber_num n2] at h
    split_ifs at h with hle
    cases h3 : number cnt (.bool true) (.int 1) with
    | error e => simp only [h3] at h; cases h
    | ok w3 =>
    simp only [h3] at h
    obtain ⟨rfl, n, hn⟩ := (number_count _ _).1 h3
    rw [count_toInt hn] at h
    exact ⟨x1, x2, n, n1, n2, by rw [lessEq_iff]; exact hle, hn, by cases h; rfl⟩
  · rintro ⟨a, b, n, h1, h2, h3, h4, rfl⟩
    rw [(number_default lo lo).2 ⟨rfl, a, h1⟩, (number_default hi hi).2 ⟨rfl, b, h2⟩]
    simp only [bind, Except.bind]
    rw [isNumber_num h1, isNumber_num h2, if_neg (by rw [← lessEq_iff]; exact h3),
      (number_count cnt cnt).2 ⟨rfl, n, h4⟩]
    simp only [count_toInt h4]

theorem determineDx_ok_iff (lo hi cnt : PyVal K) (d : Nd K) :
    determineDx lo hi cnt = .ok d ↔
    ∃ a b n, IsNumber false lo a ∧ IsNumber false hi b ∧ ¬ LessEq b a ∧ Count cnt n ∧
      d = ⟨[1, n, 1], linspace a b n⟩ :=
  axis_ok_iff lo hi cnt (fun a b n => ⟨[1, n, 1], linspace a b n⟩) d

theorem determineDy_ok_iff (lo hi cnt : PyVal K) (d : Nd K) :
    determineDy lo hi cnt = .ok d ↔
    ∃ a b n, IsNumber false lo a ∧ IsNumber false hi b ∧ ¬ LessEq b a ∧ Count cnt n ∧
      d = ⟨[n, 1, 1], linspace a b n⟩ :=
  axis_ok_iff lo hi cnt (fun a b n => ⟨[n, 1, 1], linspace a b n⟩) d

theorem determineRf_ok_iff (m cnt : PyVal K) (d : Nd K × Nd K) :
    determineRf m cnt = .ok d ↔
    ∃ x n, IsNumber false m x ∧ ¬ Less x (.fin 1) ∧ Count cnt n ∧
      d = (⟨[n], linspace (.fin 1) x n⟩,
        ⟨[((linspace (.fin 1) x n).reverse ++ (linspace (.fin 1) x n).tail).length],
          (linspace (.fin 1) x n).reverse ++ (linspace (.fin 1) x n).tail⟩) := by
  have h1' : IsNumber false (.int 1 : PyVal K) (.fin 1) := Or.inl ⟨1, .int 1, by simp⟩
  unfold determineRf
  constructor
  · intro h
    cases h1 : number m (.bool false) (.int 1) with
    | error e => simp only [h1, bind, Except.bind] at h; cases h
    | ok w1 =>
    cases h3 : number cnt (.bool true) (.int 1) with
    | error e => simp only [h1, h3, bind, Except.bind] at h; cases h
    | ok w3 =>
    simp only [h1, h3, bind, Except.bind] at h
    obtain ⟨rfl, x1, n1, hx⟩ := (number_lower false _ _ _ _ h1').1 h1
    obtain ⟨rfl, n, hn⟩ := (number_count _ _).1 h3
    rw [count_toInt hn, isNumber_num n1] at h
    exact ⟨x1, n, n1, hx, hn, by cases h; rfl⟩
  · rintro ⟨x, n, h1, h2, h4, rfl⟩
    rw [(number_lower false m m _ _ h1').2 ⟨rfl, x, h1, h2⟩,
      (number_count cnt cnt).2 ⟨rfl, n, h4⟩]
    simp only [bind, Except.bind, count_toInt h4, isNumber_num h1]

/-- What the constructor makes. -/
def Spec.gridOf (a b : XF K) (nx : ℕ) (c d : XF K) (ny : ℕ) (m : XF K) (nr : ℕ) : GridParams K :=
  let rf := linspace (.fin 1) m nr
  let rfArray := rf.reverse ++ rf.tail
  { dx := ⟨[1, nx, 1], linspace a b nx⟩
    dy := ⟨[ny, 1, 1], linspace c d ny⟩
    rf := ⟨[nr], rf⟩
    rfArray := ⟨[rfArray.length], rfArray⟩
    gridShape := (ny, nx, rfArray.length)
    sliceShape := (ny, nx)
    extendable := XF.eqb ((linspace c d ny).headD .nan) (.fin 0) &&
      XF.eqb ((linspace a b nx).headD .nan) (.fin 0) }

theorem setExtendable_cons (g : GridParams K) (hx : g.dx.data ≠ []) (hy : g.dy.data ≠ []) :
    g.setExtendable = .ok { g with extendable := (XF.eqb (g.dy.data.headD .nan) (.fin 0) &&
        XF.eqb (g.dx.data.headD .nan) (.fin 0)) } := by
  unfold GridParams.setExtendable
  cases h : g.dy.data with
  | nil => exact absurd h hy
  | cons y ys =>
    cases h' : g.dx.data with
    | nil => exact absurd h' hx
    | cons x xs =>
      simp only [List.headD_cons]
      by_cases h0 : XF.eqb y (.fin 0) = true
      · rw [if_pos h0, h0]; simp
      · rw [if_neg h0]
        rw [Bool.not_eq_true] at h0
        rw [h0]; simp

theorem linspace_ne_nil (a b : XF K) {n : ℕ} (hn : 1 ≤ n) : linspace a b n ≠ [] := by
  intro h
  have := linspace_length a b n
  rw [h] at this
  simp at this
  omega

/-- The constructor succeeds exactly on these arguments, with this result. -/
theorem new_ok_iff (minX maxX numX minY maxY numY maxRf numRf : PyVal K) (g : GridParams K) :
    GridParams.new minX maxX numX minY maxY numY maxRf numRf = .ok g ↔
    ∃ a b nx c d ny m nr,
      (IsNumber false minX a ∧ IsNumber false maxX b ∧ ¬ LessEq b a ∧ Count numX nx) ∧
      (IsNumber false minY c ∧ IsNumber false maxY d ∧ ¬ LessEq d c ∧ Count numY ny) ∧
      (IsNumber false maxRf m ∧ ¬ Less m (.fin 1) ∧ Count numRf nr) ∧
      g = gridOf a b nx c d ny m nr := by
  unfold GridParams.new
  constructor
  · intro h
    cases h1 : determineDx minX maxX numX with
    | error e => simp only [h1, bind, Except.bind] at h; cases h
    | ok w1 =>
    cases h2 : determineDy minY maxY numY with
    | error e => simp only [h1, h2, bind, Except.bind] at h; cases h
    | ok w2 =>
    cases h3 : determineRf maxRf numRf with
    | error e => simp only [h1, h2, h3, bind, Except.bind] at h; cases h
    | ok w3 =>
    obtain ⟨a, b, nx, p1, p2, p3, p4, rfl⟩ := (determineDx_ok_iff _ _ _ _).1 h1
    obtain ⟨c, d, ny, q1, q2, q3, q4, rfl⟩ := (determineDy_ok_iff _ _ _ _).1 h2
    obtain ⟨m, nr, r1, r2, r3, rfl⟩ := (determineRf_ok_iff _ _ _).1 h3
    simp only [h1, h2, h3, bind, Except.bind] at h
    rw [setExtendable_cons _ (linspace_ne_nil _ _ p4.1) (linspace_ne_nil _ _ q4.1)] at h
    refine ⟨a, b, nx, c, d, ny, m, nr, ⟨p1, p2, p3, p4⟩, ⟨q1, q2, q3, q4⟩, ⟨r1, r2, r3⟩, ?_⟩
    cases h
    simp only [GridParams.setShapes, gridOf, linspace_length]
  · rintro ⟨a, b, nx, c, d, ny, m, nr, ⟨p1, p2, p3, p4⟩, ⟨q1, q2, q3, q4⟩, ⟨r1, r2, r3⟩, rfl⟩
    rw [(determineDx_ok_iff _ _ _ _).2 ⟨a, b, nx, p1, p2, p3, p4, rfl⟩,
      (determineDy_ok_iff _ _ _ _).2 ⟨c, d, ny, q1, q2, q3, q4, rfl⟩,
      (determineRf_ok_iff _ _ _).2 ⟨m, nr, r1, r2, r3, rfl⟩]
    simp only [bind, Except.bind]
    rw [setExtendable_cons _ (linspace_ne_nil _ _ p4.1) (linspace_ne_nil _ _ q4.1)]
    simp only [GridParams.setShapes, gridOf, linspace_length]

/-- **C21** Construction succeeds exactly when the limits are numbers with min below max (or not
comparable), the counts are integers of at least one, and `max_rf` is a number not below one. -/
theorem C21_constructor_iff (minX maxX numX minY maxY numY maxRf numRf : PyVal K) :
    (∃ g, GridParams.new minX maxX numX minY maxY numY maxRf numRf = .ok g) ↔
    (∃ a b n, IsNumber false minX a ∧ IsNumber false maxX b ∧ ¬ LessEq b a ∧ Count numX n) ∧
    (∃ c d n, IsNumber false minY c ∧ IsNumber false maxY d ∧ ¬ LessEq d c ∧ Count numY n) ∧
    (∃ m n, IsNumber false maxRf m ∧ ¬ Less m (.fin 1) ∧ Count numRf n) := by
  constructor
  · rintro ⟨g, h⟩
    obtain ⟨a, b, nx, c, d, ny, m, nr, h1, h2, h3, -⟩ := (new_ok_iff ..).1 h
    exact ⟨⟨a, b, nx, h1⟩, ⟨c, d, ny, h2⟩, ⟨m, nr, h3⟩⟩
  · rintro ⟨⟨a, b, nx, h1⟩, ⟨c, d, ny, h2⟩, ⟨m, nr, h3⟩⟩
    exact ⟨_, (new_ok_iff ..).2 ⟨a, b, nx, c, d, ny, m, nr, h1, h2, h3, rfl⟩⟩

theorem isNumber_unique {ci : Bool} {v : PyVal K} {x y : XF K} (h : IsNumber ci v x)
    (h' : IsNumber ci v y) : x = y := by rw [← isNumber_num h, ← isNumber_num h']

theorem count_unique {v : PyVal K} {n m : ℕ} (h : Count v n) (h' : Count v m) : n = m := by
  rw [← count_toInt h, ← count_toInt h']

/-- **C21** For finite limits: the constructor succeeds iff min < max (both axes), and then the
vectors are evenly spaced from min to max and `grid_shape = (num_y, num_x, 2 num_rf - 1)`. -/
theorem C21_vectors (minX maxX numX minY maxY numY maxRf numRf : PyVal K)
    (a b c d : K) (nx ny nr : ℕ) (m : XF K)
    (ha : IsNumber false minX (.fin a)) (hb : IsNumber false maxX (.fin b)) (hnx : Count numX nx)
    (hc : IsNumber false minY (.fin c)) (hd : IsNumber false maxY (.fin d)) (hny : Count numY ny)
    (hm : IsNumber false maxRf m) (hm1 : ¬ Less m (.fin 1)) (hnr : Count numRf nr) :
    ((∃ g, GridParams.new minX maxX numX minY maxY numY maxRf numRf = .ok g) ↔ a < b ∧ c < d) ∧
    ∀ g, GridParams.new minX maxX numX minY maxY numY maxRf numRf = .ok g →
      Evenly g.dx.data a b nx ∧ Evenly g.dy.data c d ny ∧
      g.dx.shape = [1, nx, 1] ∧ g.dy.shape = [ny, 1, 1] ∧
      g.gridShape = (ny, nx, 2 * nr - 1) ∧ g.sliceShape = (ny, nx) ∧
      (g.extendable = true ↔ a = 0 ∧ c = 0) := by
  have key : ∀ x y : K, ¬ LessEq (.fin y) (.fin x) ↔ x < y := by
    intro x y; rw [lessEq_iff]; simp
  have hcount : ((linspace (.fin 1) m nr).reverse ++ (linspace (.fin 1) m nr).tail).length
      = 2 * nr - 1 := by
    simp [linspace_length]; have := hnr.1; omega
  constructor
  · rw [C21_constructor_iff]
    constructor
    · rintro ⟨⟨a', b', n, h1, h2, h3, h4⟩, ⟨c', d', n', h1', h2', h3', h4'⟩, -⟩
      rw [isNumber_unique h1 ha, isNumber_unique h2 hb, key] at h3
      rw [isNumber_unique h1' hc, isNumber_unique h2' hd, key] at h3'
      exact ⟨h3, h3'⟩
    · rintro ⟨h1, h2⟩
      exact ⟨⟨_, _, nx, ha, hb, (key _ _).2 h1, hnx⟩, ⟨_, _, ny, hc, hd, (key _ _).2 h2, hny⟩,
        ⟨m, nr, hm, hm1, hnr⟩⟩
  · intro g hg
    obtain ⟨a', b', nx', c', d', ny', m', nr', ⟨p1, p2, p3, p4⟩, ⟨q1, q2, q3, q4⟩, ⟨r1, r2, r3⟩, rfl⟩ :=
      (new_ok_iff ..).1 hg
    obtain rfl := isNumber_unique p1 ha
    obtain rfl := isNumber_unique p2 hb
    obtain rfl := isNumber_unique q1 hc
    obtain rfl := isNumber_unique q2 hd
    obtain rfl := isNumber_unique r1 hm
    obtain rfl := count_unique p4 hnx
    obtain rfl := count_unique q4 hny
    obtain rfl := count_unique r3 hnr
    rw [key] at p3 q3
    have ex := linspace_evenly p3 p4.1
    have ey := linspace_evenly q3 q4.1
    refine ⟨ex, ey, rfl, rfl, ?_, rfl, ?_⟩
    · simp only [gridOf, hcount]
    · have e1 := ex.first
      have e2 := ey.first
      simp only [gridOf]
      rw [← List.head?_eq_getElem?] at e1 e2
      rw [List.headD_eq_head?_getD, List.headD_eq_head?_getD, e1, e2]
      simp [and_comm]

/-! ## C22 -/

/-- **C22** `rf_array` has length `2 num_rf - 1`, reads the same backwards, holds one at the
index `num_rf - 1`, and from there rises in both directions in equal steps, to `max_rf` at both ends
(if there is more than one point). -/
theorem C22_rf_array (minX maxX numX minY maxY numY maxRf numRf : PyVal K) (g : GridParams K)
    (hg : GridParams.new minX maxX numX minY maxY numY maxRf numRf = .ok g) (m : K) (n : ℕ)
    (hm : IsNumber false maxRf (.fin m)) (hn : Count numRf n) :
    g.rfArray.data.length = 2 * n - 1 ∧ g.rfArray.data.reverse = g.rfArray.data ∧
    g.rfArray.data[n - 1]? = some (.fin 1) ∧
    (2 ≤ n → g.rfArray.data[0]? = some (.fin m) ∧ g.rfArray.data[2 * n - 2]? = some (.fin m)) ∧
    ∃ h : K, 0 ≤ h ∧ (1 < m → 0 < h) ∧ ∀ j < n,
      g.rfArray.data[n - 1 + j]? = some (.fin (1 + j * h)) ∧
      g.rfArray.data[n - 1 - j]? = some (.fin (1 + j * h)) := by
  obtain ⟨a', b', nx', c', d', ny', m', nr', -, -, ⟨r1, r2, r3⟩, rfl⟩ := (new_ok_iff ..).1 hg
  obtain rfl := isNumber_unique r1 hm
  obtain rfl := count_unique r3 hn
  have hn1 := r3.1
  have hm1 : 1 ≤ m := by rw [less_iff] at r2; simpa using r2
  -- the vector
  obtain ⟨h, h0, h1, hl, hlast⟩ : ∃ h : K, 0 ≤ h ∧ (1 < m → 0 < h) ∧
      (∀ j < nr', (linspace (.fin 1) (.fin m) nr')[j]? = some (.fin (1 + j * h))) ∧
      (2 ≤ nr' → (1 : K) + ((nr' - 1 : ℕ) : K) * h = m) := by
    rcases Nat.lt_or_ge nr' 2 with h | h
    · obtain rfl : nr' = 1 := by omega
      rw [linspace_one]
      exact ⟨1, zero_le_one, fun _ => one_pos, by
        intro j hj; obtain rfl : j = 0 := by omega
        simp, by omega⟩
    · have hd : (0 : K) < (nr' : K) - 1 := by
        have : (1 : K) < nr' := by exact_mod_cast h
        linarith
      refine ⟨(m - 1) / (nr' - 1), div_nonneg (by linarith) hd.le,
        fun h => div_pos (by linarith) hd, ?_, ?_⟩
      · intro j hj
        rw [linspace_fin _ _ h, List.getElem?_map, List.getElem?_range hj]
        simp
      · intro _
        rw [Nat.cast_sub (by omega)]
        push_cast
        field_simp
        ring
  have hlen := linspace_length (K := K) (.fin 1) (.fin m) nr'
  simp only [gridOf]
  set l := linspace (K := K) (.fin 1) (.fin m) nr' with hdef
  have hleft : ∀ j < nr', (l.reverse ++ l.tail)[nr' - 1 - j]? = some (.fin (1 + j * h)) := by
    intro j hj
    rw [List.getElem?_append_left (by rw [List.length_reverse, hlen]; omega),
      List.getElem?_reverse (by rw [hlen]; omega), hlen,
      show nr' - 1 - (nr' - 1 - j) = j by omega]
    exact hl j hj
  have hright : ∀ j < nr', (l.reverse ++ l.tail)[nr' - 1 + j]? = some (.fin (1 + j * h)) := by
    intro j hj
    rcases Nat.eq_zero_or_pos j with rfl | hj0
    · exact hleft 0 hj
    · rw [List.getElem?_append_right (by rw [List.length_reverse, hlen]; omega), List.length_reverse,
        hlen, List.getElem?_tail, show nr' - 1 + j - nr' + 1 = j by omega]
      exact hl j hj
  have hL : (l.reverse ++ l.tail).length = 2 * nr' - 1 := by simp [hlen]; omega
  refine ⟨hL, ?_, ?_, ?_, h, h0, h1, fun j hj => ⟨hright j hj, hleft j hj⟩⟩
  · apply List.ext_getElem?
    intro k
    rcases Nat.lt_or_ge k (2 * nr' - 1) with hk | hk
    · rw [List.getElem?_reverse (by rw [hL]; exact hk), hL]
      rcases Nat.lt_or_ge k (nr' - 1) with hk' | hk'
      · have e1 := hright (nr' - 1 - k) (by omega)
        have e2 := hleft (nr' - 1 - k) (by omega)
        rw [show nr' - 1 + (nr' - 1 - k) = 2 * nr' - 1 - 1 - k by omega] at e1
        rw [show nr' - 1 - (nr' - 1 - k) = k by omega] at e2
        rw [e1, e2]
      · have e1 := hleft (k - (nr' - 1)) (by omega)
        have e2 := hright (k - (nr' - 1)) (by omega)
        rw [show nr' - 1 - (k - (nr' - 1)) = 2 * nr' - 1 - 1 - k by omega] at e1
        rw [show nr' - 1 + (k - (nr' - 1)) = k by omega] at e2
        rw [e1, e2]
    · rw [List.getElem?_eq_none (by rw [List.length_reverse, hL]; exact hk),
        List.getElem?_eq_none (by rw [hL]; exact hk)]
  · have := hleft 0 (by omega)
    simpa using this
  · intro h2
    have e1 := hleft (nr' - 1) (by omega)
    have e2 := hright (nr' - 1) (by omega)
    rw [hlast h2] at e1 e2
    rw [show nr' - 1 - (nr' - 1) = 0 by omega] at e1
    rw [show nr' - 1 + (nr' - 1) = 2 * nr' - 2 by omega] at e2
    exact ⟨e1, e2⟩

/-! ## C23, C24 -/

theorem zero_mul_add (a t : XF K) (ht : ((XF.fin 0).mul t).add a = .fin 0) :
    a = .fin 0 ∧ ∃ z, t = .fin z := by
  cases t with
  | fin z => cases a <;> simp_all [XF.mul, XF.add]
  | nan => cases a <;> simp [XF.mul, XF.add] at ht
  | pinf => cases a <;> simp [XF.mul, XF.add, XF.infSign] at ht
  | ninf => cases a <;> simp [XF.mul, XF.add, XF.infSign] at ht

theorem linspace_head (a b : XF K) {n : ℕ} (hn : 1 ≤ n) (hab : ¬ LessEq b a)
    (h : XF.eqb ((linspace a b n).headD .nan) (.fin 0) = true) :
    a = .fin 0 ∧ ∃ x : K, 0 < x ∧ b = .fin x := by
  have hz : ∀ x : XF K, XF.eqb x (.fin 0) = true → x = .fin 0 := by
    intro x hx; cases x <;> simp_all [XF.eqb]
  have h' := hz _ h
  rw [List.headD_eq_head?_getD, List.head?_eq_getElem?] at h'
  have e : (linspace a b n)[0]? = some (
      if 1 < n then
      if XF.eqb ((b.sub a).div (.fin ((n : K) - 1))) (.fin 0) then
        (((XF.fin ((0 : ℕ) : K)).div (.fin ((n : K) - 1))).mul (b.sub a)).add a
      else ((XF.fin ((0 : ℕ) : K)).mul ((b.sub a).div (.fin ((n : K) - 1)))).add a
    else ((XF.fin ((0 : ℕ) : K)).mul (b.sub a)).add a) := by
    unfold linspace
    simp only
    by_cases h1 : 1 < n
    · rw [if_pos h1, List.getElem?_set, if_neg (by omega), List.getElem?_map,
        List.getElem?_range (by omega)]
      rfl
    · rw [if_neg h1, List.getElem?_map, List.getElem?_range (by omega)]
      rfl
  rw [e] at h'
  simp only [Option.getD_some, Nat.cast_zero] at h'
  rw [lessEq_iff] at hab
  -- the start and the step
  have h0 := zero_mul_add a
  have h1 : a = .fin 0 ∧ ((∃ z, b.sub a = .fin z) ∨ ∃ z, (b.sub a).div (.fin ((n : K) - 1)) = .fin z) := by
    split_ifs at h' with g1 g2
    · have : (XF.fin (0 : K)).div (.fin ((n : K) - 1)) = .fin 0 := by
        have hd : (n : K) - 1 ≠ 0 := by
          have : (1 : K) < n := by exact_mod_cast g1
          exact (by linarith : (0 : K) < n - 1).ne'
        simp [XF.div, hd]
      rw [this] at h'
      exact ⟨(h0 _ h').1, Or.inl (h0 _ h').2⟩
    · exact ⟨(h0 _ h').1, Or.inr (h0 _ h').2⟩
    · exact ⟨(h0 _ h').1, Or.inl (h0 _ h').2⟩
  obtain ⟨rfl, h2⟩ := h1
  refine ⟨rfl, ?_⟩
  cases b with
  | fin y => exact ⟨y, by simpa using hab, rfl⟩
  | nan => rcases h2 with ⟨z, hz⟩ | ⟨z, hz⟩ <;> simp [XF.sub, XF.add, XF.div] at hz
  | pinf =>
    rcases h2 with ⟨z, hz⟩ | ⟨z, hz⟩
    · simp [XF.sub, XF.neg, XF.add] at hz
    · simp only [XF.sub, XF.neg, XF.add, XF.div] at hz
      split_ifs at hz
  | ninf => simp [XF.le] at hab

theorem lastOf_linspace {x : K} (hx : 0 < x) {n : ℕ} (hn : 2 ≤ n) (s : List ℕ) :
    GridParams.lastOf ⟨s, linspace (.fin 0) (.fin x) n⟩ = .ok (.npFloat .w64 (.fin x)) := by
  have h := (linspace_evenly hx (by omega : 1 ≤ n)).last hn
  have hl := linspace_length (K := K) (.fin 0) (.fin x) n
  unfold GridParams.lastOf
  simp only
  rw [List.getLast?_eq_getElem?, hl, h]

theorem lastOf_linspace_one (x : K) (s : List ℕ) :
    GridParams.lastOf ⟨s, linspace (.fin 0) (.fin x) 1⟩ = .ok (.npFloat .w64 (.fin 0)) := by
  rw [linspace_one]; rfl

theorem isNum_float64 (x : XF K) : IsNumber false (.npFloat .w64 x) x := Or.inr ⟨rfl, .npFloat _ _⟩

theorem count_int {n : ℕ} (hn : 1 ≤ n) : Count (K := K) (.int (2 * (n : ℤ) - 1)) (2 * n - 1) := by
  refine ⟨by omega, ?_⟩
  have : ((2 * n - 1 : ℕ) : ℤ) = 2 * (n : ℤ) - 1 := by omega
  rw [this]; exact .int _

/-- A grid made by the constructor that is extendable has its corner at the origin. -/
theorem gridOf_extendable {a b : XF K} {nx : ℕ} {c d : XF K} {ny : ℕ} {m : XF K} {nr : ℕ}
    (hx : 1 ≤ nx) (hy : 1 ≤ ny) (hab : ¬ LessEq b a) (hcd : ¬ LessEq d c)
    (h : (gridOf a b nx c d ny m nr).extendable = true) :
    a = .fin 0 ∧ c = .fin 0 ∧ ∃ x y : K, 0 < x ∧ 0 < y ∧ b = .fin x ∧ d = .fin y := by
  simp only [gridOf, Bool.and_eq_true] at h
  obtain ⟨rfl, y, hy0, rfl⟩ := linspace_head _ _ hy hcd h.1
  obtain ⟨rfl, x, hx0, rfl⟩ := linspace_head _ _ hx hab h.2
  exact ⟨rfl, rfl, x, y, hx0, hy0, rfl, rfl⟩

theorem extendable_origin {x y : K} (hx0 : 0 < x) (hy0 : 0 < y) {nx ny : ℕ} (hx : 1 ≤ nx)
    (hy : 1 ≤ ny) (m : XF K) (nr : ℕ) :
    (gridOf (.fin 0) (.fin x) nx (.fin 0) (.fin y) ny m nr).extendable = true := by
  have e1 := (linspace_evenly hx0 hx).first
  have e2 := (linspace_evenly hy0 hy).first
  simp only [gridOf]
  rw [← List.head?_eq_getElem?] at e1 e2
  rw [List.headD_eq_head?_getD, List.headD_eq_head?_getD, e1, e2]
  simp

theorem extendGrid_ok {x y : K} (hx0 : 0 < x) (hy0 : 0 < y) {nx ny : ℕ} (hx : 2 ≤ nx)
    (hy : 2 ≤ ny) (m : XF K) (nr : ℕ) :
    GridParams.extendGrid (gridOf (.fin 0) (.fin x) nx (.fin 0) (.fin y) ny m nr) =
      (.ok (), gridOf (.fin (-x)) (.fin x) (2 * nx - 1) (.fin (-y)) (.fin y) (2 * ny - 1) m nr) := by
  have hneg : ∀ z : K, 0 < z → ¬ LessEq (.fin z) (.fin (-z)) := by
    intro z hz; rw [lessEq_iff]; simp; linarith
  have hdx : determineDx (.npFloat .w64 (.fin (-x))) (.npFloat .w64 (.fin x))
      (.int (2 * (nx : ℤ) - 1)) = .ok ⟨[1, 2 * nx - 1, 1], linspace (.fin (-x)) (.fin x) (2 * nx - 1)⟩ :=
    (determineDx_ok_iff _ _ _ _).2 ⟨_, _, _, isNum_float64 _, isNum_float64 _, hneg x hx0,
      count_int (by omega), rfl⟩
  have hdy : determineDy (.npFloat .w64 (.fin (-y))) (.npFloat .w64 (.fin y))
      (.int (2 * (ny : ℤ) - 1)) = .ok ⟨[2 * ny - 1, 1, 1], linspace (.fin (-y)) (.fin y) (2 * ny - 1)⟩ :=
    (determineDy_ok_iff _ _ _ _).2 ⟨_, _, _, isNum_float64 _, isNum_float64 _, hneg y hy0,
      count_int (by omega), rfl⟩
  unfold GridParams.extendGrid
  simp only [Meth.get_bind]
  rw [extendable_origin hx0 hy0 (by omega) (by omega)]
  simp only [Bool.not_true, Bool.false_eq_true, if_false]
  simp only [gridOf]
  rw [lastOf_linspace hx0 hx, lastOf_linspace hy0 hy]
  simp only [Meth.lift_ok_bind, GridParams.negVal, PyVal.num_npFloat, XF.neg]
  rw [hdx]
  simp only [Meth.lift_ok_bind, Meth.modify_bind]
  rw [hdy]
  simp only [Meth.lift_ok_bind, Meth.modify_bind, Meth.get_bind]
  rw [setExtendable_cons _ (linspace_ne_nil _ _ (by omega)) (linspace_ne_nil _ _ (by omega))]
  simp only [Meth.lift_ok_bind, Meth.set_apply, GridParams.setShapes, linspace_length]

/-- `l'` is `l` (which starts with zero) mirrored about zero. -/
structure Spec.Mirrored (l l' : List (XF K)) (n : ℕ) : Prop where
  length : l.length = n
  length' : l'.length = 2 * n - 1
  values : ∀ j < n, ∃ v : K, l[j]? = some (.fin v) ∧ l'[n - 1 + j]? = some (.fin v) ∧
    l'[n - 1 - j]? = some (.fin (-v))

theorem linspace_mirrored {x : K} {n : ℕ} (hn : 2 ≤ n) :
    Mirrored (linspace (.fin 0) (.fin x) n) (linspace (.fin (-x)) (.fin x) (2 * n - 1)) n := by
  refine ⟨linspace_length _ _ _, linspace_length _ _ _, ?_⟩
  intro j hj
  have hd : (n : K) - 1 ≠ 0 := by
    have : (1 : K) < n := by exact_mod_cast hn
    exact (by linarith : (0 : K) < n - 1).ne'
  have hc : ((2 * n - 1 : ℕ) : K) - 1 = 2 * ((n : K) - 1) := by
    rw [Nat.cast_sub (by omega)]; push_cast; ring
  refine ⟨j * (x / (n - 1)), ?_, ?_, ?_⟩
  · rw [linspace_fin _ _ hn, List.getElem?_map, List.getElem?_range hj]; simp
  · rw [linspace_fin _ _ (by omega), List.getElem?_map, List.getElem?_range (by omega), hc]
    simp only [Option.map_some, Option.some.injEq, XF.fin.injEq]
    rw [Nat.cast_add, Nat.cast_sub (by omega)]
    push_cast
    field_simp
    ring
  · rw [linspace_fin _ _ (by omega), List.getElem?_map, List.getElem?_range (by omega), hc]
    simp only [Option.map_some, Option.some.injEq, XF.fin.injEq]
    rw [Nat.cast_sub (by omega), Nat.cast_sub (by omega)]
    push_cast
    field_simp
    ring

/-- `extend_grid` raises and changes nothing if the grid is not extendable. -/
theorem extendGrid_not (g : GridParams K) (h : g.extendable = false) :
    GridParams.extendGrid g = (.error .attributeError, g) := by
  unfold GridParams.extendGrid
  simp [h]

/-- **C23** Extending a grid that starts at the origin and has at least two points per axis mirrors
both vectors about zero, keeps the radius factors, and cannot be repeated. -/
theorem C23_extend_mirrors (minX maxX numX minY maxY numY maxRf numRf : PyVal K)
    (g : GridParams K)
    (hg : GridParams.new minX maxX numX minY maxY numY maxRf numRf = .ok g)
    (hext : g.extendable = true) (hy : 2 ≤ g.sliceShape.1) (hx : 2 ≤ g.sliceShape.2) :
    ∃ g', GridParams.extendGrid g = (.ok (), g') ∧
      Mirrored g.dx.data g'.dx.data g.sliceShape.2 ∧ Mirrored g.dy.data g'.dy.data g.sliceShape.1 ∧
      g'.rf = g.rf ∧ g'.rfArray = g.rfArray ∧
      g'.gridShape = (2 * g.sliceShape.1 - 1, 2 * g.sliceShape.2 - 1, g.gridShape.2.2) ∧
      g'.sliceShape = (2 * g.sliceShape.1 - 1, 2 * g.sliceShape.2 - 1) ∧
      g'.dx.shape = [1, 2 * g.sliceShape.2 - 1, 1] ∧ g'.dy.shape = [2 * g.sliceShape.1 - 1, 1, 1] ∧
      g'.extendable = false ∧ GridParams.extendGrid g' = (.error .attributeError, g') := by
  obtain ⟨a, b, nx, c, d, ny, m, nr, ⟨p1, p2, p3, p4⟩, ⟨q1, q2, q3, q4⟩, ⟨r1, r2, r3⟩, rfl⟩ :=
    (new_ok_iff ..).1 hg
  obtain ⟨rfl, rfl, x, y, hx0, hy0, rfl, rfl⟩ := gridOf_extendable p4.1 q4.1 p3 q3 hext
  have hy' : 2 ≤ ny := hy
  have hx' : 2 ≤ nx := hx
  have hne : (gridOf (.fin (-x)) (.fin x) (2 * nx - 1) (.fin (-y)) (.fin y) (2 * ny - 1) m nr).extendable
      = false := by
    by_contra h
    rw [Bool.not_eq_false] at h
    have hneg : ∀ z : K, 0 < z → ¬ LessEq (.fin z) (.fin (-z)) := by
      intro z hz; rw [lessEq_iff]; simp; linarith
    have := (gridOf_extendable (by omega) (by omega) (hneg x hx0) (hneg y hy0) h).1
    simp only [XF.fin.injEq] at this
    linarith
  exact ⟨_, extendGrid_ok hx0 hy0 hx' hy' m nr, linspace_mirrored hx', linspace_mirrored hy', rfl,
    rfl, rfl, rfl, rfl, rfl, hne, extendGrid_not _ hne⟩

/-- The hypotheses of C23 are met. -/
example : ∃ g, GridParams.new (K := ℚ) (.int 0) (.int 1) (.int 3) (.int 0) (.int 2) (.int 2) (.int 2)
    (.int 2) = .ok g ∧ g.extendable = true ∧ 2 ≤ g.sliceShape.1 ∧ 2 ≤ g.sliceShape.2 := by
  refine ⟨gridOf (.fin 0) (.fin 1) 3 (.fin 0) (.fin 2) 2 (.fin 2) 2, ?_⟩
  decide +kernel

theorem determineDx_degenerate {n : ℕ} :
    determineDx (K := K) (.npFloat .w64 (.fin (-0))) (.npFloat .w64 (.fin 0)) (.int (2 * (n : ℤ) - 1))
      = .error .valueError := by
  unfold determineDx
  rw [(number_default _ _).2 ⟨rfl, _, isNum_float64 _⟩, (number_default _ _).2 ⟨rfl, _, isNum_float64 _⟩]
  simp [bind, Except.bind]

/-- **C24 (partial)** If `extend_grid` raises on a grid made by the constructor whose y-vector has
more than one point, the grid is unchanged.  Missing for the full claim: a single y point, for which
it is false (`C24_false`). -/
theorem C24_extend_atomic_partial (minX maxX numX minY maxY numY maxRf numRf : PyVal K)
    (g g' : GridParams K) (e : Err)
    (hg : GridParams.new minX maxX numX minY maxY numY maxRf numRf = .ok g)
    (hy : g.sliceShape.1 ≠ 1) (h : GridParams.extendGrid g = (.error e, g')) : g' = g := by
  cases hext : g.extendable with
  | false => rw [extendGrid_not g hext] at h; cases h; rfl
  | true =>
    obtain ⟨a, b, nx, c, d, ny, m, nr, ⟨p1, p2, p3, p4⟩, ⟨q1, q2, q3, q4⟩, ⟨r1, r2, r3⟩, rfl⟩ :=
      (new_ok_iff ..).1 hg
    obtain ⟨rfl, rfl, x, y, hx0, hy0, rfl, rfl⟩ := gridOf_extendable p4.1 q4.1 p3 q3 hext
    have hy' : ny ≠ 1 := hy
    have hy2 : 2 ≤ ny := by have := q4.1; omega
    rcases Nat.lt_or_ge nx 2 with hx | hx
    · obtain rfl : nx = 1 := by have := p4.1; omega
      unfold GridParams.extendGrid at h
      simp only [Meth.get_bind, hext, Bool.not_true, Bool.false_eq_true, if_false] at h
      simp only [gridOf] at h
      rw [lastOf_linspace_one, lastOf_linspace hy0 hy2] at h
      simp only [Meth.lift_ok_bind, GridParams.negVal, PyVal.num_npFloat, XF.neg] at h
      rw [determineDx_degenerate, Meth.lift_error_bind] at h
      cases h
      rfl
    · rw [extendGrid_ok hx0 hy0 hx hy2] at h
      cases h

/-- **C24** On a grid that is not extendable `extend_grid` always raises `AttributeError` and changes
nothing. -/
theorem C24_not_extendable (g : GridParams K) (h : g.extendable = false) :
    GridParams.extendGrid g = (.error .attributeError, g) := extendGrid_not g h

/-- **C24 is false**: with one y point and two x points `extend_grid` raises `ValueError` after it
has replaced `dx`, which then disagrees with `grid_shape`. -/
theorem C24_false : ∃ g g' : GridParams ℚ,
    GridParams.new (.int 0) (.int 1) (.int 2) (.int 0) (.int 1) (.int 1) (.int 2) (.int 2) = .ok g ∧
    GridParams.extendGrid g = (.error .valueError, g') ∧
    g.dx.data.length = 2 ∧ g'.dx.data.length = 3 ∧ g'.gridShape.2.1 = 2 := by
  refine ⟨gridOf (.fin 0) (.fin 1) 2 (.fin 0) (.fin 1) 1 (.fin 2) 2,
    (GridParams.extendGrid (gridOf (.fin 0) (.fin 1) 2 (.fin 0) (.fin 1) 1 (.fin 2) 2)).2, ?_⟩
  decide +kernel

end Beyonce
