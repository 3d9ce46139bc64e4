import Verif.StatsRounded
import Verif.Props.Report
import Verif.Props.Digits
import Verif.Props.GridRounded
import Mathlib.Algebra.Order.BigOperators.Group.List

/-!
# Property C122: the printed statistics in floating point
-/

set_option linter.unusedSectionVars false

namespace Beyonce
open Spec
variable {K : Type} [Field K] [LinearOrder K]

/-! ## The order of numpy adds every element once -/

theorem chain_leaves (t : SumTree K) (l : List (XF K)) : (t.chain l).leaves = t.leaves ++ l := by
  induction l generalizing t with
  | nil => simp [SumTree.chain]
  | cons x l ih =>
    have := ih (.add t (.leaf x))
    unfold SumTree.chain at this ⊢
    rw [List.foldl_cons, this]
    simp [SumTree.leaves]

theorem chain_depth (t : SumTree K) (l : List (XF K)) : (t.chain l).depth = t.depth + l.length := by
  induction l generalizing t with
  | nil => simp [SumTree.chain]
  | cons x l ih =>
    have := ih (.add t (.leaf x))
    unfold SumTree.chain at this ⊢
    rw [List.foldl_cons, this]
    simp [SumTree.depth]
    omega

theorem range_getD {α : Type} (l : List α) (d : α) : (List.range l.length).map (fun j => l.getD j d) = l := by
  apply List.ext_getElem
  · simp
  · intro i h1 h2
    simp [List.getD_eq_getElem?_getD, List.getElem?_eq_getElem h2]

theorem lane_leaves (l : List (XF K)) (k : ℕ) (h : 8 ≤ l.length) :
    (StatsRounded.lane l k).leaves = (List.range (l.length / 8)).map fun i => l.getD (8 * i + k) (.fin 0) := by
  unfold StatsRounded.lane
  rw [chain_leaves]
  obtain ⟨m, hm⟩ : ∃ m, l.length / 8 = m + 1 := ⟨l.length / 8 - 1, by omega⟩
  rw [hm, List.range_succ_eq_map, Nat.add_sub_cancel]
  simp [SumTree.leaves]

theorem sum_lanes {M : Type} [AddCommMonoid M] (g : ℕ → M) (m : ℕ) :
    ((List.range m).map fun i => g (8 * i)).sum + ((List.range m).map fun i => g (8 * i + 1)).sum +
      (((List.range m).map fun i => g (8 * i + 2)).sum + ((List.range m).map fun i => g (8 * i + 3)).sum) +
      (((List.range m).map fun i => g (8 * i + 4)).sum + ((List.range m).map fun i => g (8 * i + 5)).sum +
      (((List.range m).map fun i => g (8 * i + 6)).sum + ((List.range m).map fun i => g (8 * i + 7)).sum)) =
    ((List.range (8 * m)).map g).sum := by
  induction m with
  | zero => simp
  | succ m ih =>
    rw [show 8 * (m + 1) = 8 * m + 1 + 1 + 1 + 1 + 1 + 1 + 1 + 1 by ring]
    simp only [List.range_succ, List.map_append, List.sum_append, List.map_cons, List.map_nil, List.sum_cons,
      List.sum_nil, add_zero]
    rw [← ih]
    generalize ((List.range m).map fun i => g (8 * i)).sum = a0
    generalize ((List.range m).map fun i => g (8 * i + 1)).sum = a1
    generalize ((List.range m).map fun i => g (8 * i + 2)).sum = a2
    generalize ((List.range m).map fun i => g (8 * i + 3)).sum = a3
    generalize ((List.range m).map fun i => g (8 * i + 4)).sum = a4
    generalize ((List.range m).map fun i => g (8 * i + 5)).sum = a5
    generalize ((List.range m).map fun i => g (8 * i + 6)).sum = a6
    generalize ((List.range m).map fun i => g (8 * i + 7)).sum = a7
    simp only [add_assoc, Nat.reduceAdd]
    abel

theorem lanes_leaves (l : List (XF K)) (h : 8 ≤ l.length) (hd : l.length % 8 = 0) :
    (StatsRounded.lanes l).leaves.Perm l := by
  classical
  rw [List.perm_iff_count]
  intro a
  have hc : ∀ s : List (XF K), s.count a = (s.map fun x => if x = a then 1 else 0).sum := by
    intro s
    induction s with
    | nil => rfl
    | cons x s ih =>
      rw [List.count_cons, List.map_cons, List.sum_cons, ih]
      by_cases hx : x = a <;> simp [hx, add_comm]
  unfold StatsRounded.lanes
  simp only [SumTree.leaves, List.count_append, lane_leaves l _ h]
  simp only [hc, List.map_map]
  have hm : 8 * (l.length / 8) = l.length := by omega
  have := sum_lanes (fun j => if l.getD j (.fin 0) = a then 1 else 0) (l.length / 8)
  rw [hm] at this
  conv_rhs => rw [← range_getD l (.fin 0), List.map_map]
  exact this

theorem block_leaves (l : List (XF K)) (h : 8 ≤ l.length) : (StatsRounded.block l).leaves.Perm l := by
  unfold StatsRounded.block
  rw [chain_leaves]
  have hl : (l.take (l.length - l.length % 8)).length = l.length - l.length % 8 := by
    rw [List.length_take]; omega
  have := (lanes_leaves (l.take (l.length - l.length % 8)) (by omega) (by omega)).append_right
    (l.drop (l.length - l.length % 8))
  rwa [List.take_append_drop] at this

/-- The pairwise sum adds every element once, and a zero if there are fewer than eight. -/
theorem pairwise_leaves (l : List (XF K)) :
    (StatsRounded.pairwiseTree l).leaves.Perm (if l.length < 8 then .fin 0 :: l else l) := by
  induction hn : l.length using Nat.strong_induction_on generalizing l with
  | _ n ih =>
    rw [StatsRounded.pairwiseTree]
    split_ifs with h1 h2 h3 h4 h5
    · rw [chain_leaves]; simp [SumTree.leaves]
    · omega
    · omega
    · exact block_leaves l (by omega)
    · omega
    · have e1 : (l.take (StatsRounded.half l.length)).length = StatsRounded.half l.length := by
        rw [List.length_take]; unfold StatsRounded.half; omega
      have e2 : (l.drop (StatsRounded.half l.length)).length = l.length - StatsRounded.half l.length := List.length_drop
      have i1 := ih _ (by rw [e1]; unfold StatsRounded.half; omega) (l.take (StatsRounded.half l.length)) rfl
      have i2 := ih _ (by rw [e2]; unfold StatsRounded.half; omega) (l.drop (StatsRounded.half l.length)) rfl
      rw [if_neg (by rw [e1]; unfold StatsRounded.half; omega)] at i1
      rw [if_neg (by rw [e2]; unfold StatsRounded.half; omega)] at i2
      simp only [SumTree.leaves]
      have := i1.append i2
      rwa [List.take_append_drop] at this

theorem lane_depth (l : List (XF K)) (k : ℕ) : (StatsRounded.lane l k).depth = l.length / 8 - 1 := by
  unfold StatsRounded.lane
  rw [chain_depth]
  simp [SumTree.depth]

theorem block_depth (l : List (XF K)) (h : l.length ≤ 128) : (StatsRounded.block l).depth ≤ 25 := by
  unfold StatsRounded.block StatsRounded.lanes
  rw [chain_depth]
  simp only [SumTree.depth, lane_depth, List.length_take, List.length_drop]
  omega

/-- The pairwise sum is shallow: doubling the number of elements costs one addition more. -/
theorem pairwise_depth (k : ℕ) (l : List (XF K)) (h : l.length ≤ 112 * 2 ^ k + 16) :
    (StatsRounded.pairwiseTree l).depth ≤ 25 + k := by
  induction k generalizing l with
  | zero =>
    rw [StatsRounded.pairwiseTree]
    split_ifs with h1 h2
    · rw [chain_depth]; simp [SumTree.depth]; omega
    · have := block_depth l h2; omega
    · omega
  | succ k ih =>
    rw [StatsRounded.pairwiseTree]
    split_ifs with h1 h2
    · rw [chain_depth]; simp [SumTree.depth]; omega
    · have := block_depth l h2; omega
    · have hp : 2 ^ (k + 1) = 2 * 2 ^ k := by ring
      have i1 := ih (l.take (StatsRounded.half l.length)) (by
        rw [List.length_take]; unfold StatsRounded.half; omega)
      have i2 := ih (l.drop (StatsRounded.half l.length)) (by
        rw [List.length_drop]; unfold StatsRounded.half; omega)
      simp only [SumTree.depth]
      omega

/-! ## The error of a sum -/

section
variable [IsStrictOrderedRing K]

theorem XF.round_fin' (rnd : K → K) (x : K) : (XF.fin x).round rnd = .fin (rnd x) := rfl

theorem abs_sum_le_sum_abs (l : List K) : |l.sum| ≤ (l.map fun x => |x|).sum := by
  induction l with
  | nil => simp
  | cons x l ih =>
    rw [List.sum_cons, List.map_cons, List.sum_cons]
    exact (abs_add_le _ _).trans (by linarith)

theorem sum_abs_nonneg (l : List K) : 0 ≤ (l.map fun x => |x|).sum := (abs_nonneg _).trans (abs_sum_le_sum_abs l)

theorem finites_append (l m : List (XF K)) : finites (l ++ m) = finites l ++ finites m := by
  induction l with
  | nil => rfl
  | cons x l ih => cases x <;> simp [finites, ih]

theorem finites_perm {l m : List (XF K)} (h : l.Perm m) : (finites l).Perm (finites m) := by
  induction h with
  | nil => exact .refl _
  | cons x _ ih => cases x <;> simp [finites, ih]
  | swap x y l => cases x <;> cases y <;> simp [finites, List.Perm.swap]
  | trans _ _ ih1 ih2 => exact ih1.trans ih2

/-- Whatever the order, a rounded sum of finite numbers is off by a few units of rounding of the sum of their absolute
values. -/
theorem value_near {rnd : K → K} {u : K} (hr : Rounds rnd u) (hu : 0 ≤ u) (t : SumTree K)
    (ht : ∀ x ∈ t.leaves, ∃ v, x = .fin v) :
    ∃ v, t.value rnd = .fin v ∧
      |v - (finites t.leaves).sum| ≤ ((1 + u) ^ t.depth - 1) * ((finites t.leaves).map fun x => |x|).sum := by
  induction t with
  | leaf x =>
    obtain ⟨v, rfl⟩ := ht x (by simp [SumTree.leaves])
    exact ⟨v, rfl, by simp [SumTree.leaves, SumTree.depth, finites]⟩
  | add l r ihl ihr =>
    obtain ⟨a, ha, ea⟩ := ihl fun x hx => ht x (by simp [SumTree.leaves, hx])
    obtain ⟨b, hb, eb⟩ := ihr fun x hx => ht x (by simp [SumTree.leaves, hx])
    refine ⟨rnd (a + b), by simp [SumTree.value, ha, hb, XF.add, XF.round], ?_⟩
    simp only [SumTree.leaves, SumTree.depth, finites_append, List.sum_append, List.map_append]
    have na := sum_abs_nonneg (finites l.leaves)
    have nb := sum_abs_nonneg (finites r.leaves)
    have sa := abs_sum_le_sum_abs (finites l.leaves)
    have sb := abs_sum_le_sum_abs (finites r.leaves)
    generalize ((finites l.leaves).map fun x => |x|).sum = A at *
    generalize ((finites r.leaves).map fun x => |x|).sum = B at *
    generalize (finites l.leaves).sum = x at *
    generalize (finites r.leaves).sum = y at *
    have p1 : (1 + u) ^ l.depth ≤ (1 + u) ^ max l.depth r.depth :=
      pow_le_pow_right₀ (by linarith) (le_max_left _ _)
    have p2 : (1 + u) ^ r.depth ≤ (1 + u) ^ max l.depth r.depth :=
      pow_le_pow_right₀ (by linarith) (le_max_right _ _)
    rw [pow_succ]
    generalize (1 + u) ^ max l.depth r.depth = P at *
    have ea' : |a - x| ≤ (P - 1) * A := ea.trans (mul_le_mul_of_nonneg_right (by linarith) na)
    have eb' : |b - y| ≤ (P - 1) * B := eb.trans (mul_le_mul_of_nonneg_right (by linarith) nb)
    have h1 : |a + b - (x + y)| ≤ (P - 1) * (A + B) := by
      rw [show a + b - (x + y) = (a - x) + (b - y) by ring]
      refine (abs_add_le _ _).trans ?_
      linarith
    have h2 : |a + b| ≤ P * (A + B) := by
      rw [show a + b = (a + b - (x + y)) + (x + y) by ring]
      refine (abs_add_le _ _).trans ?_
      have := abs_add_le x y
      linarith
    have h3 := hr (a + b)
    have h4 : u * |a + b| ≤ u * (P * (A + B)) := mul_le_mul_of_nonneg_left h2 hu
    rw [show rnd (a + b) - (x + y) = (rnd (a + b) - (a + b)) + (a + b - (x + y)) by ring]
    refine (abs_add_le _ _).trans ?_
    nlinarith

theorem pow_error (u : K) (hu : 0 ≤ u) (n : ℕ) (h : 2 * n * u ≤ 1) : (1 + u) ^ n - 1 ≤ 2 * n * u := by
  induction n with
  | zero => simp
  | succ n ih =>
    have hn : (0 : K) ≤ n := n.cast_nonneg
    push_cast at h ⊢
    have h' : 2 * (n : K) * u ≤ 1 := by nlinarith
    have := ih h'
    rw [pow_succ]
    nlinarith [mul_nonneg hu hu, mul_nonneg hn hu]

/-- The mean of the absolute values of the numbers. -/
def Spec.meanSize (l : List K) : K := (l.map fun x => |x|).sum / (l.length : K)

/-- The mean of the numbers. -/
def Spec.meanOf (l : List K) : K := l.sum / (l.length : K)

theorem zeroed_finites {l : List (XF K)} (h : FiniteOrNan l) : (finites (StatsRounded.zeroed l)).sum = (finites l).sum ∧
    ((finites (StatsRounded.zeroed l)).map fun x => |x|).sum = ((finites l).map fun x => |x|).sum ∧
    ∀ x ∈ StatsRounded.zeroed l, ∃ v, x = .fin v := by
  induction l with
  | nil => simp [StatsRounded.zeroed, finites]
  | cons x l ih =>
    obtain ⟨i1, i2, i3⟩ := ih fun y hy => h y (List.mem_cons_of_mem _ hy)
    rcases h x List.mem_cons_self with rfl | ⟨v, rfl⟩
    · refine ⟨?_, ?_, ?_⟩
      · simpa [StatsRounded.zeroed, finites] using i1
      · simpa [StatsRounded.zeroed, finites] using i2
      · intro y hy
        rcases List.mem_cons.1 hy with rfl | hy
        · exact ⟨0, rfl⟩
        · exact i3 y hy
    · refine ⟨?_, ?_, ?_⟩
      · simpa [StatsRounded.zeroed, finites] using i1
      · simpa [StatsRounded.zeroed, finites] using i2
      · intro y hy
        rcases List.mem_cons.1 hy with rfl | hy
        · exact ⟨v, rfl⟩
        · exact i3 y hy

/-- The mean that is divided from any sum of the data is near the mean. -/
theorem mean_near {rnd : K → K} {u : K} (hr : Rounds rnd u) (hu : 0 ≤ u) {l : List (XF K)} (h : FiniteOrNan l)
    (hn : ¬ AllNan l) (t : SumTree K) (z : List (XF K)) (hz : ∀ x ∈ z, x = .fin 0)
    (ht : t.leaves.Perm (z ++ StatsRounded.zeroed l)) :
    ∃ q, ((t.value rnd).div (.fin ((numbersOf l).length : K))).round rnd = .fin q ∧
      |q - meanOf (finites l)| ≤ ((1 + u) ^ (t.depth + 1) - 1) * meanSize (finites l) := by
  obtain ⟨z1, z2, z3⟩ := zeroed_finites h
  have hz0 : (finites z).sum = 0 ∧ ((finites z).map fun x => |x|).sum = 0 := by
    clear ht
    induction z with
    | nil => simp [finites]
    | cons x z ih =>
      obtain ⟨i1, i2⟩ := ih fun y hy => hz y (List.mem_cons_of_mem _ hy)
      rw [hz x List.mem_cons_self]
      simp [finites, i1, i2]
  have hp := finites_perm ht
  rw [finites_append] at hp
  obtain ⟨v, hv, e⟩ := value_near hr hu t fun x hx => by
    rcases List.mem_append.1 (ht.mem_iff.1 hx) with hx | hx
    · exact ⟨0, hz x hx⟩
    · exact z3 x hx
  have s1 : (finites t.leaves).sum = (finites l).sum := by
    rw [hp.sum_eq, List.sum_append, hz0.1, z1, zero_add]
  have s2 : ((finites t.leaves).map fun x => |x|).sum = ((finites l).map fun x => |x|).sum := by
    rw [(hp.map _).sum_eq, List.map_append, List.sum_append, hz0.2, z2, zero_add]
  rw [s1, s2] at e
  have hc : (0 : K) < ((finites l).length : K) := by
    rw [Nat.cast_pos]
    exact List.length_pos_iff.2 (finites_ne_nil h hn)
  rw [hv, numbersOf_eq h, List.length_map]
  refine ⟨rnd (v / (finites l).length), by simp [XF.div, XF.round, hc.ne'], ?_⟩
  unfold meanOf meanSize
  have n1 := sum_abs_nonneg (finites l)
  have n2 := abs_sum_le_sum_abs (finites l)
  generalize ((finites l).length : K) = c at *
  generalize (finites l).sum = S at *
  generalize ((finites l).map fun x => |x|).sum = A at *
  rw [pow_succ]
  generalize (1 + u) ^ t.depth = P at *
  have h3 := hr (v / c)
  have h1 : |v / c - S / c| ≤ (P - 1) * (A / c) := by
    rw [← sub_div, abs_div, abs_of_pos hc, ← mul_div_assoc]
    exact div_le_div_of_nonneg_right e hc.le
  have h2 : |S / c| ≤ A / c := by
    rw [abs_div, abs_of_pos hc]
    exact div_le_div_of_nonneg_right n2 hc.le
  have n3 : 0 ≤ A / c := div_nonneg n1 hc.le
  generalize v / c = x at *
  generalize S / c = y at *
  generalize A / c = B at *
  have h4 : |x| ≤ P * B := by
    rw [show x = (x - y) + y by ring]
    refine (abs_add_le _ _).trans ?_
    linarith
  have h5 : u * |x| ≤ u * (P * B) := mul_le_mul_of_nonneg_left h4 hu
  rw [show rnd x - y = (rnd x - x) + (x - y) by ring]
  refine (abs_add_le _ _).trans ?_
  nlinarith

/-- **C122** The printed mean of a property with `n` elements, whatever its history: it is off by a few units of
rounding of the mean size of the numbers, however large the grid, since numpy adds in pairs. -/
theorem C122_mean {rnd : K → K} {u : K} (hr : Rounds rnd u) (hu : 0 ≤ u) (p : GProp K) (r : PropReport K)
    (h : StatsRounded.report rnd p = .ok r) (hf : FiniteOrNan p.data.data) (hn : ¬ AllNan p.data.data) (k : ℕ)
    (hk : p.data.data.length ≤ 112 * 2 ^ k + 16) (hu1 : 2 * (27 + k) * u ≤ 1) :
    ∃ q, r.mean = .fin q ∧
      |q - meanOf (finites p.data.data)| ≤ 2 * (27 + k) * u * meanSize (finites p.data.data) := by
  have hm : r.mean = StatsRounded.nanmean rnd p.data.data := by
    unfold StatsRounded.report at h
    cases hlo : shown p.vmin with
    | error e => rw [hlo, error_bind] at h; cases h
    | ok lo =>
      rw [hlo, ok_bind] at h
      cases hhi : shown p.vmax with
      | error e => rw [hhi, error_bind] at h; cases h
      | ok hi => rw [hhi, ok_bind] at h; cases h; rfl
  obtain ⟨z, hz, hp⟩ : ∃ z : List (XF K), (∀ x ∈ z, x = .fin 0) ∧
      (StatsRounded.sumOrder (StatsRounded.zeroed p.data.data)).leaves.Perm (z ++ StatsRounded.zeroed p.data.data) := by
    have := pairwise_leaves (StatsRounded.zeroed p.data.data)
    unfold StatsRounded.sumOrder
    split_ifs at this
    · exact ⟨[.fin 0, .fin 0], by simp, by simpa [SumTree.leaves] using this⟩
    · exact ⟨[.fin 0], by simp, by simpa [SumTree.leaves] using this⟩
  obtain ⟨q, hq, e⟩ := mean_near hr hu hf hn _ z hz hp
  refine ⟨q, hm.trans hq, e.trans (mul_le_mul_of_nonneg_right ?_ ?_)⟩
  · have hd : (StatsRounded.sumOrder (StatsRounded.zeroed p.data.data)).depth + 1 ≤ 27 + k := by
      have := pairwise_depth k (StatsRounded.zeroed p.data.data) (by simpa [StatsRounded.zeroed] using hk)
      simp only [StatsRounded.sumOrder, SumTree.depth]
      omega
    have h1 : (1 + u) ^ ((StatsRounded.sumOrder (StatsRounded.zeroed p.data.data)).depth + 1) ≤ (1 + u) ^ (27 + k) :=
      pow_le_pow_right₀ (by linarith) hd
    have h2 := pow_error u hu (27 + k) (by push_cast; exact hu1)
    push_cast at h2
    linarith
  · exact div_nonneg (sum_abs_nonneg _) (Nat.cast_nonneg _)

theorem meanSize_le {l : List K} (hne : l ≠ []) {b : K} (hb : ∀ x ∈ l, |x| ≤ b) : meanSize l ≤ b := by
  have hc : (0 : K) < (l.length : K) := by rw [Nat.cast_pos]; exact List.length_pos_iff.2 hne
  unfold meanSize
  rw [div_le_iff₀ hc]
  have : ∀ m : List K, (∀ x ∈ m, |x| ≤ b) → (m.map fun x => |x|).sum ≤ b * (m.length : K) := by
    intro m hm
    induction m with
    | nil => simp
    | cons x m ih =>
      have := ih fun y hy => hm y (List.mem_cons_of_mem _ hy)
      have := hm x List.mem_cons_self
      rw [List.map_cons, List.sum_cons, List.length_cons]
      push_cast
      linarith
  exact this l hb

theorem meanOf_between {l : List K} (hne : l ≠ []) {a b : K} (h : ∀ x ∈ l, a ≤ x ∧ x ≤ b) :
    a ≤ meanOf l ∧ meanOf l ≤ b := by
  have hc : (0 : K) < (l.length : K) := by rw [Nat.cast_pos]; exact List.length_pos_iff.2 hne
  unfold meanOf
  rw [div_le_iff₀ hc, le_div_iff₀ hc]
  have : ∀ m : List K, (∀ x ∈ m, a ≤ x ∧ x ≤ b) → a * (m.length : K) ≤ m.sum ∧ m.sum ≤ b * (m.length : K) := by
    intro m hm
    induction m with
    | nil => simp
    | cons x m ih =>
      have i := ih fun y hy => hm y (List.mem_cons_of_mem _ hy)
      have := hm x List.mem_cons_self
      rw [List.sum_cons, List.length_cons]
      push_cast
      constructor <;> linarith
  exact this l h

/-- **C122, printed** The printed mean passes the printed limits by one unit of its last place at the most, if the
numbers are of moderate size. -/
theorem C122_printed_partial [FloorRing K] {rnd : K → K} {u : K} (hr : Rounds rnd u) (hu : 0 ≤ u) (p : GProp K)
    (r : PropReport K) (h : StatsRounded.report rnd p = .ok r) (hf : FiniteOrNan p.data.data)
    (hn : ¬ AllNan p.data.data) (k : ℕ) (hk : p.data.data.length ≤ 112 * 2 ^ k + 16) (hu1 : 2 * (27 + k) * u ≤ 1)
    (lo hi b : K) (hlo : r.minimum = .fin lo) (hhi : r.maximum = .fin hi)
    (hlim : ∀ x, XF.fin x ∈ p.data.data → lo ≤ x ∧ x ≤ hi) (hb : ∀ x, XF.fin x ∈ p.data.data → |x| ≤ b)
    (hsmall : 2 * (27 + k) * u * b < 1 / 10 ^ 4) :
    (readDecimal (fixed 4 r.minimum) : K) - 1 / 10 ^ 4 ≤ readDecimal (fixed 4 r.mean) ∧
    (readDecimal (fixed 4 r.mean) : K) ≤ readDecimal (fixed 4 r.maximum) + 1 / 10 ^ 4 := by
  obtain ⟨q, hq, e⟩ := C122_mean hr hu p r h hf hn k hk hu1
  have hne := finites_ne_nil hf hn
  obtain ⟨m1, m2⟩ := meanOf_between hne fun x hx => hlim x ((mem_finites _ x).1 hx)
  have hs := meanSize_le hne fun x hx => hb x ((mem_finites _ x).1 hx)
  have hk0 : (0 : K) ≤ k := k.cast_nonneg
  have e' := e.trans (mul_le_mul_of_nonneg_left hs (by positivity))
  have e'' := abs_le.1 e'
  have whole : ∀ x : K, ∃ z : ℤ, (readDecimal (fixed 4 (.fin x)) : K) = z / 10 ^ 4 := by
    intro x
    rw [read_fixed]
    split_ifs with hx
    · exact ⟨-GGrad.roundHalfEven (|x| * 10 ^ 4), by push_cast; ring⟩
    · exact ⟨GGrad.roundHalfEven (|x| * 10 ^ 4), by ring⟩
  have step : ∀ z w : ℤ, (z : K) / 10 ^ 4 < w / 10 ^ 4 + 2 / 10 ^ 4 → (z : K) / 10 ^ 4 ≤ w / 10 ^ 4 + 1 / 10 ^ 4 := by
    intro z w hzw
    rw [← add_div] at hzw ⊢
    rw [div_lt_div_iff_of_pos_right (by positivity)] at hzw
    rw [div_le_div_iff_of_pos_right (by positivity)]
    have : z < w + 2 := by exact_mod_cast hzw
    have : z ≤ w + 1 := by omega
    exact_mod_cast this
  rw [hlo, hhi, hq]
  have cl := abs_le.1 (C100_near 4 lo)
  have ch := abs_le.1 (C100_near 4 hi)
  have cq := abs_le.1 (C100_near 4 q)
  obtain ⟨zl, el⟩ := whole lo
  obtain ⟨zh, eh⟩ := whole hi
  obtain ⟨zq, eq⟩ := whole q
  rw [el] at cl ⊢
  rw [eh] at ch ⊢
  rw [eq] at cq ⊢
  have t : (2 : K) / 10 ^ 4 = 1 / (2 * 10 ^ 4) + 1 / (2 * 10 ^ 4) + 1 / 10 ^ 4 := by norm_num
  constructor
  · have := step zl zq (by linarith)
    linarith
  · exact step zq zh (by linarith)

/-- Rounding in base two: doubling is exact. -/
def Spec.Binary (rnd : K → K) : Prop := ∀ x, rnd (2 * x) = 2 * rnd x

theorem toDouble_binary : Binary toDouble := by
  intro x
  by_cases hx : x = 0
  · simp [hx, toDouble_zero]
  have hf : flog2 (2 * x) = flog2 x + 1 := by
    apply flog2_unique
    · rw [zpow_add_one₀ (by norm_num), abs_mul, mul_comm]
      have := flog2_le hx
      simpa using this
    · rw [zpow_add_one₀ (by norm_num), abs_mul, mul_comm]
      have := lt_flog2 hx
      simpa using this
  unfold toDouble
  rw [if_neg hx, if_neg (mul_ne_zero two_ne_zero hx), hf,
    show flog2 x + 1 - 52 = (flog2 x - 52) + 1 by ring, zpow_add_one₀ (by norm_num)]
  have hq : (2 : ℚ) ^ (flog2 x - 52) ≠ 0 := zpow_ne_zero _ (by norm_num)
  generalize (2 : ℚ) ^ (flog2 x - 52) = q at *
  rw [show 2 * x / (q * 2) = x / q by field_simp]
  ring

/-- **C122, median** The printed median of floats lies between any two floats that the data lie between, and it is the
median rounded once. -/
theorem C122_median {rnd : K → K} {u : K} (hr : FloatRounding rnd u) (h2 : Binary rnd) (p : GProp K) (r : PropReport K)
    (h : StatsRounded.report rnd p = .ok r) (hf : FiniteOrNan p.data.data) (hn : ¬ AllNan p.data.data)
    (hd : ∀ x, XF.fin x ∈ p.data.data → rnd x = x) :
    ∃ m, IsMedian (finites p.data.data) m ∧ r.median = .fin (rnd m) ∧
      ∀ lo hi, (∀ x, XF.fin x ∈ p.data.data → lo ≤ x ∧ x ≤ hi) → rnd lo = lo → rnd hi = hi →
        lo ≤ rnd m ∧ rnd m ≤ hi := by
  have hm : r.median = StatsRounded.nanmedian rnd p.data.data := by
    unfold StatsRounded.report at h
    cases hlo : shown p.vmin with
    | error e => rw [hlo, error_bind] at h; cases h
    | ok lo =>
      rw [hlo, ok_bind] at h
      cases hhi : shown p.vmax with
      | error e => rw [hhi, error_bind] at h; cases h
      | ok hi => rw [hhi, ok_bind] at h; cases h; rfl
  have hhalf : ∀ x, rnd (x / 2) = rnd x / 2 := by
    intro x
    have := h2 (x / 2)
    rw [mul_div_cancel₀ x two_ne_zero] at this
    rw [this]
    ring
  obtain ⟨m, e1, e2⟩ := nanmedian_eq hf hn
  refine ⟨m, e2, ?_, ?_⟩
  · rw [hm]
    unfold Beyonce.nanmedian at e1
    unfold StatsRounded.nanmedian
    have hs : ∀ i, (sortedNumbers p.data.data).getD i .nan = .nan ∨
        ∃ x, (sortedNumbers p.data.data).getD i .nan = .fin x ∧ rnd x = x := by
      intro i
      rw [List.getD_eq_getElem?_getD]
      cases hi : (sortedNumbers p.data.data)[i]? with
      | none => exact Or.inl rfl
      | some y =>
        have := (List.perm_insertionSort (fun a b : XF K => XF.le a b = true) (numbersOf p.data.data)).mem_iff.1
          (List.mem_of_getElem? hi)
        have hy := (List.mem_filter.1 this).1
        rcases hf y hy with rfl | ⟨x, rfl⟩
        · exact Or.inl rfl
        · exact Or.inr ⟨x, rfl, hd x hy⟩
    simp only at e1 ⊢
    generalize sortedNumbers p.data.data = s at *
    split_ifs at e1 ⊢ with c1 c2
    · rcases hs (s.length / 2) with hx | ⟨x, hx, rx⟩
      · rw [hx] at e1; cases e1
      · rw [hx] at e1 ⊢
        cases e1
        rw [rx]
    · rcases hs (s.length / 2 - 1) with ha | ⟨a, ha, -⟩
      · rw [ha] at e1; simp [XF.add, XF.div] at e1
      rcases hs (s.length / 2) with hb | ⟨b, hb, -⟩
      · rw [ha, hb] at e1; simp [XF.add, XF.div] at e1
      rw [ha, hb] at e1 ⊢
      simp only [XF.add, XF.div, two_ne_zero, if_false, XF.fin.injEq, XF.round] at e1 ⊢
      rw [← e1, hhalf, hhalf, hr.idem]
  · intro lo hi hl r1 r2
    obtain ⟨a, b, ha, hb, rfl, -⟩ := e2
    obtain ⟨a1, a2⟩ := hl a ((mem_finites _ a).1 ha)
    obtain ⟨b1, b2⟩ := hl b ((mem_finites _ b).1 hb)
    constructor
    · conv_lhs => rw [← r1]
      exact hr.mono (by linarith)
    · conv_rhs => rw [← r2]
      exact hr.mono (by linarith)

/-- **C122, masked** The printed percentage is the share of masked elements up to three units of rounding; it lies
between 0 and 100, and as long as the grid is not enormous these two are reached only if nothing or everything is
masked. -/
theorem C122_masked {rnd : K → K} {u : K} (hr : FloatRounding rnd u) (hu : 0 ≤ u) (hu1 : u < 1) (h100 : rnd 100 = 100)
    (p : GProp K) (r : PropReport K) (h : StatsRounded.report rnd p = .ok r) (m : Mask) (hm : p.mask = some m)
    (hs : m.data.length = size m.shape) (hne : m.data ≠ []) :
    ∃ q q', IsShare m.data q ∧ r.masked = some (.fin q') ∧ |q' - q| ≤ 3 * u * q ∧ 0 ≤ q' ∧ q' ≤ 100 ∧
      (q' = 0 ↔ ∀ b ∈ m.data, b = false) ∧ ((∀ b ∈ m.data, b = true) → q' = 100) ∧
      (3 * u * (m.data.length : K) < 1 → q' = 100 → ∀ b ∈ m.data, b = true) := by
  have hm' : r.masked = some (StatsRounded.maskedPercentage rnd m) := by
    unfold StatsRounded.report at h
    cases hlo : shown p.vmin with
    | error e => rw [hlo, error_bind] at h; cases h
    | ok lo =>
      rw [hlo, ok_bind] at h
      cases hhi : shown p.vmax with
      | error e => rw [hhi, error_bind] at h; cases h
      | ok hi => rw [hhi, ok_bind] at h; cases h; simp [hm]
  obtain ⟨q, hq, hsh, q0, q1, qz, qa⟩ := maskedPercentage_spec (K := K) m hs hne
  have hpos : (0 : K) < (m.data.length : K) := by
    rw [Nat.cast_pos]; exact List.length_pos_iff.2 hne
  have hshape : ((m.shape.prod : ℕ) : K) = (m.data.length : K) := by rw [hs]; rfl
  obtain ⟨x, hx⟩ : ∃ x : K, x = ((m.data.count true : ℕ) : K) / (m.data.length : K) := ⟨_, rfl⟩
  have hqx : q = 100 * x := by
    unfold maskedPercentage at hq
    rw [hshape] at hq
    simp only [XF.div, XF.mul, hpos.ne', if_false, XF.fin.injEq] at hq
    rw [← hq, hx]
  have hp : StatsRounded.maskedPercentage rnd m = .fin (rnd (100 * rnd x)) := by
    unfold StatsRounded.maskedPercentage
    rw [hshape]
    simp only [XF.div, XF.mul, hpos.ne', if_false, XF.round, hx]
  have x0 : 0 ≤ x := by linarith
  have x1 : x ≤ 1 := by linarith
  have r0 : rnd 0 = 0 := rnd_zero hr.error
  have y0 : 0 ≤ rnd x := by rw [← r0]; exact hr.mono x0
  have y1 : rnd x ≤ 1 := by rw [← hr.one]; exact hr.mono x1
  have e1 := hr.error x
  have e2 := hr.error (100 * rnd x)
  rw [abs_of_nonneg x0] at e1
  rw [abs_of_nonneg (show 0 ≤ 100 * rnd x by positivity)] at e2
  have e1' := abs_le.1 e1
  have e2' := abs_le.1 e2
  have hux : 0 ≤ u * x := mul_nonneg hu x0
  have huu : u * (u * x) ≤ u * x := mul_le_of_le_one_left hux hu1.le
  have hurx : u * rnd x ≤ u * x + u * (u * x) := by nlinarith
  have near : |rnd (100 * rnd x) - q| ≤ 3 * u * q := by
    rw [hqx, abs_le]
    constructor <;> nlinarith
  have l0 : 0 ≤ rnd (100 * rnd x) := by rw [← r0]; exact hr.mono (by positivity)
  have l1 : rnd (100 * rnd x) ≤ 100 := by rw [← h100]; conv_lhs => rw [h100]
                                          exact hr.mono (by linarith)
  refine ⟨q, rnd (100 * rnd x), hsh, by rw [hm', hp], near, l0, l1, ?_, ?_, ?_⟩
  · rw [← qz]
    constructor
    · intro hz
      have a1 : 100 * rnd x ≤ 0 := by
        rw [hz] at e2'
        nlinarith
      have a2 : rnd x = 0 := by linarith
      rw [a2] at e1'
      have : x ≤ 0 := by nlinarith
      rw [hqx]
      have : x = 0 := le_antisymm this x0
      rw [this, mul_zero]
    · intro hz
      have : x = 0 := by rw [hqx] at hz; linarith
      rw [this, r0, mul_zero, r0]
  · intro hall
    have : x = 1 := by have := qa.2 hall; rw [hqx] at this; linarith
    rw [this, hr.one, mul_one, h100]
  · intro hn hz
    rw [hz] at near
    have b1 := (abs_le.1 near).2
    by_contra hnot
    have hlt : (m.data.filter id).length < m.data.length := by
      refine lt_of_le_of_ne (List.length_filter_le _ _) fun heq => hnot ?_
      intro b hb
      have := List.length_filter_eq_length_iff.1 heq b hb
      simpa using this
    have hk : ((m.data.filter id).length : K) + 1 ≤ (m.data.length : K) := by exact_mod_cast hlt
    have hs' : q * (m.data.length : K) = 100 * ((m.data.filter id).length : K) := hsh
    have c1 : (100 - q) * (m.data.length : K) ≤ 3 * u * q * (m.data.length : K) :=
      mul_le_mul_of_nonneg_right b1 hpos.le
    have c2 : 3 * u * q * (m.data.length : K) ≤ 100 * (3 * u * (m.data.length : K)) := by
      have := mul_le_mul_of_nonneg_right q1 (show 0 ≤ 3 * u * (m.data.length : K) by positivity)
      linarith
    linarith

/-- Without rounding the statistics are those of the plain model. -/
theorem nanmean_exact {l : List (XF K)} (h : FiniteOrNan l) (hn : ¬ AllNan l) :
    StatsRounded.nanmean id l = Beyonce.nanmean l := by
  obtain ⟨z, hz, hp⟩ : ∃ z : List (XF K), (∀ x ∈ z, x = .fin 0) ∧
      (StatsRounded.sumOrder (StatsRounded.zeroed l)).leaves.Perm (z ++ StatsRounded.zeroed l) := by
    have := pairwise_leaves (StatsRounded.zeroed l)
    unfold StatsRounded.sumOrder
    split_ifs at this
    · exact ⟨[.fin 0, .fin 0], by simp, by simpa [SumTree.leaves] using this⟩
    · exact ⟨[.fin 0], by simp, by simpa [SumTree.leaves] using this⟩
  obtain ⟨q, hq, e⟩ := mean_near (rnd := id) (u := 0) (fun x => by simp) le_rfl h hn _ z hz hp
  rw [add_zero, one_pow, sub_self, zero_mul] at e
  have : q = meanOf (finites l) := sub_eq_zero.1 (abs_eq_zero.1 (le_antisymm e (abs_nonneg _)))
  rw [nanmean_eq h hn]
  unfold StatsRounded.nanmean
  rw [hq, this]
  rfl

theorem nanmedian_exact (l : List (XF K)) : StatsRounded.nanmedian id l = Beyonce.nanmedian l := by
  simp only [StatsRounded.nanmedian, Beyonce.nanmedian, round_id]

theorem maskedPercentage_exact (m : Mask) : StatsRounded.maskedPercentage (K := K) id m = Beyonce.maskedPercentage m := by
  simp only [StatsRounded.maskedPercentage, Beyonce.maskedPercentage, round_id]

end

/-! ## The mean can pass the limits -/

/-- A float just below 1.33335. -/
def Spec.below : ℚ := 3002437281577225 / 2251799813685248

/-- A property that holds it three times. -/
def Spec.thrice : GProp ℚ :=
  { name := .diskRadius, unit := .eclipseDuration
    params := gridOf (.fin 0) (.fin 1) 1 (.fin 0) (.fin 1) 1 (.fin 2) 2
    data := ⟨[1, 1, 3], [.fin below, .fin below, .fin below]⟩
    mask := none, vmin := some (.fin below), vmax := some (.fin below), colorMap := "viridis", numColors := 11 }

example : GProp.new .diskRadius .eclipseDuration (.arr ⟨"float64", [1, 1, 3], [.fin below, .fin below, .fin below]⟩)
    (gridOf (.fin 0) (.fin 1) 1 (.fin 0) (.fin 1) 1 (.fin 2) 2) = .ok thrice := by decide +kernel

theorem thrice_mean : StatsRounded.nanmean toDouble thrice.data.data = .fin (6004874563154451 / 4503599627370496) := by
  have e : StatsRounded.sumOrder (StatsRounded.zeroed thrice.data.data) =
      .add (.leaf (.fin 0)) (.add (.add (.add (.leaf (.fin 0)) (.leaf (.fin below))) (.leaf (.fin below)))
        (.leaf (.fin below))) := by
    unfold StatsRounded.sumOrder
    rw [StatsRounded.pairwiseTree]
    rfl
  have s1 : toDouble (0 + below) = below := by decide +kernel
  have s2 : toDouble (below + below) = 2 * below := by decide +kernel
  have s3 : toDouble (2 * below + below) = 9007311844731676 / 2251799813685248 := by decide +kernel
  have s4 : toDouble (0 + 9007311844731676 / 2251799813685248) = 9007311844731676 / 2251799813685248 := by decide +kernel
  have s5 : toDouble (9007311844731676 / 2251799813685248 / 3) = 6004874563154451 / 4503599627370496 := by
    rw [show (9007311844731676 / 2251799813685248 / 3 : ℚ) = 2251827961182919 / 1688849860263936 by norm_num]
    decide +kernel
  have n : ((numbersOf thrice.data.data).length : ℚ) = 3 := by
    have : (numbersOf thrice.data.data).length = 3 := by decide +kernel
    rw [this]; norm_num
  unfold StatsRounded.nanmean
  rw [e, n]
  simp only [SumTree.value, XF.add, XF.round, s1, s2, s3, s4, XF.div, OfNat.ofNat_ne_zero, if_false, s5]

/-- **C122 is false**: three equal radii, all of them floats, with a printed mean that is above the printed maximum: the
sum of the three is rounded up, and so is its third. -/
theorem C122_false_between : ∃ r, StatsRounded.report toDouble thrice = .ok r ∧
    (∀ x ∈ thrice.data.data, x = .fin below) ∧ toDouble below = below ∧
    fixed 4 r.minimum = "1.3333" ∧ fixed 4 r.maximum = "1.3333" ∧ fixed 4 r.mean = "1.3334" ∧
    XF.lt r.maximum r.mean = true := by
  refine ⟨⟨"Disk Radius", "$t_{ecl}$", .fin below, .fin below, .fin (6004874563154451 / 4503599627370496),
    StatsRounded.nanmedian toDouble thrice.data.data, none⟩, ?_, ?_, by decide +kernel, ?_, ?_, ?_, by decide +kernel⟩
  · unfold StatsRounded.report
    rw [thrice_mean]
    rfl
  · intro x hx
    simpa [thrice] using hx
  · decide +kernel
  · decide +kernel
  · decide +kernel

/-- The hypotheses of `C122_mean`, `C122_median` and `C122_printed_partial` hold for that property. -/
example : Rounds toDouble (1 / 2 ^ 53) ∧ FiniteOrNan thrice.data.data ∧ ¬ AllNan thrice.data.data ∧
    thrice.data.data.length ≤ 112 * 2 ^ 0 + 16 ∧ 2 * (27 + ((0 : ℕ) : ℚ)) * (1 / 2 ^ 53) ≤ 1 ∧
    (∀ x, XF.fin x ∈ thrice.data.data → toDouble x = x) ∧ 2 * (27 + ((0 : ℕ) : ℚ)) * (1 / 2 ^ 53) * 2 < 1 / 10 ^ 4 := by
  refine ⟨toDouble_error, ?_, ?_, by decide, by norm_num, ?_, by norm_num⟩
  · intro x hx
    exact Or.inr ⟨below, by simpa [thrice] using hx⟩
  · intro h
    have := h (.fin below) (by simp [thrice])
    cases this
  · intro x hx
    have : x = below := by simpa [thrice] using hx
    rw [this]
    decide +kernel

/-- 200 elements are halved as numpy does, `n2 = n / 2; n2 -= n2 % 8`: 96 and 104. -/
example : StatsRounded.half 200 = 96 ∧ StatsRounded.half 136 = 64 ∧ StatsRounded.half 1000 = 496 := by decide

end Beyonce
