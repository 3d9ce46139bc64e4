import Verif.BuildRounded
import Verif.Props.GradientRounded
import Verif.Props.EdgeRounded
import Verif.Props.Convergence

/-!
# Properties C111 and C115: a grid that is built in floating point
-/

set_option linter.unusedSectionVars false

namespace Beyonce
open Spec Real

/-! ## Exact arithmetic is the model without rounding -/

section
variable {K : Type} [Field K] [LinearOrder K] [RealFns K]

theorem segment_exact (x : XF K) (xp fp : List (XF K)) (j : ℕ) :
    BuildRounded.segment .exact x xp fp j = segment x xp fp j := by
  simp only [BuildRounded.segment, segment, FloatLib.sub, FloatLib.mul, FloatLib.add, FloatLib.div]
  simp only [FloatLib.exact, round_same]

theorem interpOne_exact (xp fp : List (XF K)) (x : XF K) (g : ℕ) :
    BuildRounded.interpOne .exact xp fp x g = interpOne xp fp x g := by
  simp only [BuildRounded.interpOne, interpOne, segment_exact]
  cases searchInside x xp g <;> rfl

theorem npInterp_exact (xs xp fp : List (XF K)) :
    BuildRounded.npInterp .exact xs xp fp = npInterp xs xp fp := by
  unfold BuildRounded.npInterp npInterp
  generalize 0 = g
  induction xs generalizing g with
  | nil => rfl
  | cons x xs ih => simp only [BuildRounded.interpFrom, interpFrom, interpOne_exact, ih]

theorem gridLinspace_same (a b : XF K) (n : ℕ) : GridRounded.linspace (fun x => x) a b n = linspace a b n := by
  simp only [GridRounded.linspace, linspace, round_same]

theorem fxyArray_exact (m : XF K) (shift num : ℕ) :
    BuildRounded.fxyArray .exact m shift num = Shallot.fxyArray m shift num := by
  simp only [BuildRounded.fxyArray, Shallot.fxyArray, FloatLib.mul]
  simp only [FloatLib.exact, round_same, gridLinspace_same]

theorem tooFar_exact (m : XF K) (shift : ℕ) : BuildRounded.tooFar .exact m shift = Shallot.tooFar m shift := by
  simp only [BuildRounded.tooFar, Shallot.tooFar, FloatLib.mul]
  simp only [FloatLib.exact, round_same]

theorem radii_exact (hpi : (RealFns.pi : K) ≠ 0) (c : Shallot.Cell K) (l : List (XF K × XF K)) :
    BuildRounded.radii .exact c l = Shallot.radii c l := by
  simp only [BuildRounded.radii, Shallot.radii, diskParameters_exact hpi]

theorem exact_div (a b : XF K) : (FloatLib.exact : FloatLib K).div a b = a.div b := by
  simp only [FloatLib.div, FloatLib.exact, round_same]

theorem interpolateScales_exact (dy : XF K) (rf fy radius : List (XF K)) :
    BuildRounded.interpolateScales .exact dy rf fy radius = Shallot.interpolateScales dy rf fy radius := by
  simp only [BuildRounded.interpolateScales, Shallot.interpolateScales, npInterp_exact, exact_div,
    funext (determineFx_exact dy)]

theorem horizontalLoop_exact (hpi : (RealFns.pi : K) ≠ 0) :
    (BuildRounded.horizontalLoop (.exact : FloatLib K)) = Shallot.horizontalLoop := by
  funext c
  delta BuildRounded.horizontalLoop Shallot.horizontalLoop
  congr 1
  funext f shift fy radius
  simp only [BuildRounded.horizontalScales, Shallot.horizontalScales, radii_exact hpi, fxyArray_exact, tooFar_exact,
    exact_div, determineFy_exact]
  rfl

theorem verticalLoop_exact (hpi : (RealFns.pi : K) ≠ 0) :
    (BuildRounded.verticalLoop (.exact : FloatLib K)) = Shallot.verticalLoop := by
  funext c
  delta BuildRounded.verticalLoop Shallot.verticalLoop
  congr 1
  funext f shift fy radius
  simp only [BuildRounded.verticalScales, Shallot.verticalScales, radii_exact hpi, fxyArray_exact, tooFar_exact,
    exact_div, determineFx_exact]
  rfl

/-- Without rounding the model is the plain one. -/
theorem column_exact (hpi : (RealFns.pi : K) ≠ 0) (c : Shallot.Cell K) (rf : List (XF K)) :
    BuildRounded.column .exact c rf = Shallot.column c rf := by
  simp only [BuildRounded.column, Shallot.column, horizontalLoop_exact hpi, verticalLoop_exact hpi,
    interpolateScales_exact, diskParameters_exact hpi]

end

/-! ## The loops end -/

section
variable {K : Type} [Field K] [LinearOrder K] [IsStrictOrderedRing K] (L : FloatLib K)

theorem tooFar_rounded (m : K) (n : ℕ) : BuildRounded.tooFar L (.fin m) n = true ↔ L.rnd (100 * m) < n := by
  simp [BuildRounded.tooFar, FloatLib.mul, XF.mul, XF.round]

/-- A pair of scale factors that the horizontal loop tries: `fx` is one of the values of some round, `fy` is
computed from it. -/
def Spec.TriedH (c : Shallot.Cell K) (k : ℕ) (p : XF K × XF K) : Prop :=
  ∃ j, 0 < j ∧ j ≤ k ∧ p.1 ∈ BuildRounded.fxyArray L c.maxX j c.num ∧
    p.2 = GeometryRounded.determineFy L c.dy p.1

/-- A pair of scale factors that the vertical loop tries: `fy` is one of the values of some round, `fx` is computed
from it. -/
def Spec.TriedV (c : Shallot.Cell K) (k : ℕ) (p : XF K × XF K) : Prop :=
  ∃ j, 0 < j ∧ j ≤ k ∧ p.2 ∈ BuildRounded.fxyArray L c.maxY j c.num ∧
    p.1 = GeometryRounded.determineFx L c.dy p.2

theorem triedH_scales (c : Shallot.Cell K) (n : ℕ) (h : 0 < n) :
    ∀ p ∈ BuildRounded.horizontalScales L c n, TriedH L c n p := by
  intro p hp
  unfold BuildRounded.horizontalScales at hp
  rw [List.mem_reverse, List.mem_map] at hp
  obtain ⟨f, hf, rfl⟩ := hp
  exact ⟨n, h, le_rfl, hf, rfl⟩

theorem triedV_scales (c : Shallot.Cell K) (n : ℕ) (h : 0 < n) :
    ∀ p ∈ BuildRounded.verticalScales L c n, TriedV L c n p := by
  intro p hp
  unfold BuildRounded.verticalScales at hp
  rw [List.mem_map] at hp
  obtain ⟨f, hf, rfl⟩ := hp
  exact ⟨n, h, le_rfl, hf, rfl⟩

theorem horizontal_ends (c : Shallot.Cell K) (m : K) (hm : c.maxX = .fin m) (d : ℕ) :
    ∀ (n : ℕ) (l : List (XF K × XF K)), L.rnd (100 * m) < n + 1 + d → (∀ p ∈ l, TriedH L c n p) →
    BuildRounded.horizontalLoop L c (n + 1) (l.map Prod.snd) (BuildRounded.radii L c l) =
        some (.error .attributeError) ∨
    ∃ (k : ℕ) (l' : List (XF K × XF K)), 0 < k ∧ (k : K) ≤ L.rnd (100 * m) ∧ (∀ p ∈ l', TriedH L c k p) ∧
      BuildRounded.horizontalLoop L c (n + 1) (l.map Prod.snd) (BuildRounded.radii L c l) =
        some (.ok (l'.map Prod.snd, BuildRounded.radii L c l')) := by
  induction d with
  | zero =>
    intro n l hn hl
    left
    have h1 : BuildRounded.tooFar L (.fin m) (n + 1) = true := by rw [tooFar_rounded]; push_cast at *; linarith
    have h2 : BuildRounded.tooFar L (.fin m) (n + 1 + 1) = true := by rw [tooFar_rounded]; push_cast at *; linarith
    rw [BuildRounded.horizontalLoop, hm]
    simp only [h1, h2, if_true, ite_self]
  | succ d ih =>
    intro n l hn hl
    rw [BuildRounded.horizontalLoop, hm]
    have hl' : ∀ p ∈ BuildRounded.horizontalScales L c (n + 1) ++ l, TriedH L c (n + 1) p := by
      intro p hp
      rcases List.mem_append.1 hp with hp | hp
      · exact triedH_scales L c (n + 1) (by omega) p hp
      · obtain ⟨j, h1, h2, h3⟩ := hl p hp
        exact ⟨j, h1, by omega, h3⟩
    have e1 : (BuildRounded.horizontalScales L c (n + 1)).map Prod.snd ++ l.map Prod.snd =
        (BuildRounded.horizontalScales L c (n + 1) ++ l).map Prod.snd := by rw [List.map_append]
    have e2 : BuildRounded.radii L c (BuildRounded.horizontalScales L c (n + 1)) ++ BuildRounded.radii L c l =
        BuildRounded.radii L c (BuildRounded.horizontalScales L c (n + 1) ++ l) := by
      simp only [BuildRounded.radii, List.map_append]
    rw [e1, e2]
    generalize BuildRounded.horizontalScales L c (n + 1) ++ l = l' at hl'
    split_ifs with h1 h2 h2
    · exact Or.inl rfl
    · exact ih (n + 1) l' (by push_cast at *; linarith) hl'
    · exact Or.inl rfl
    · refine Or.inr ⟨n + 1, l', by omega, ?_, hl', rfl⟩
      rw [tooFar_rounded, not_lt] at h2
      exact h2

theorem vertical_ends (c : Shallot.Cell K) (m : K) (hm : c.maxY = .fin m) (s : List (XF K × XF K)) (d : ℕ) :
    ∀ (n : ℕ) (l : List (XF K × XF K)), L.rnd (100 * m) < n + 1 + d → (∀ p ∈ l, TriedV L c n p) →
    BuildRounded.verticalLoop L c (n + 1) ((s ++ l).map Prod.snd) (BuildRounded.radii L c (s ++ l)) =
        some (.error .attributeError) ∨
    ∃ (k : ℕ) (l' : List (XF K × XF K)), 0 < k ∧ (k : K) ≤ L.rnd (100 * m) ∧ (∀ p ∈ l', TriedV L c k p) ∧
      BuildRounded.verticalLoop L c (n + 1) ((s ++ l).map Prod.snd) (BuildRounded.radii L c (s ++ l)) =
        some (.ok ((s ++ l').map Prod.snd, BuildRounded.radii L c (s ++ l'))) := by
  induction d with
  | zero =>
    intro n l hn hl
    left
    have h1 : BuildRounded.tooFar L (.fin m) (n + 1) = true := by rw [tooFar_rounded]; push_cast at *; linarith
    have h2 : BuildRounded.tooFar L (.fin m) (n + 1 + 1) = true := by rw [tooFar_rounded]; push_cast at *; linarith
    rw [BuildRounded.verticalLoop, hm]
    simp only [h1, h2, if_true, ite_self]
  | succ d ih =>
    intro n l hn hl
    rw [BuildRounded.verticalLoop, hm]
    have hl' : ∀ p ∈ l ++ BuildRounded.verticalScales L c (n + 1), TriedV L c (n + 1) p := by
      intro p hp
      rcases List.mem_append.1 hp with hp | hp
      · obtain ⟨j, h1, h2, h3⟩ := hl p hp
        exact ⟨j, h1, by omega, h3⟩
      · exact triedV_scales L c (n + 1) (by omega) p hp
    have e1 : (s ++ l).map Prod.snd ++ (BuildRounded.verticalScales L c (n + 1)).map Prod.snd =
        (s ++ (l ++ BuildRounded.verticalScales L c (n + 1))).map Prod.snd := by
      rw [← List.map_append, List.append_assoc]
    have e2 : BuildRounded.radii L c (s ++ l) ++ BuildRounded.radii L c (BuildRounded.verticalScales L c (n + 1)) =
        BuildRounded.radii L c (s ++ (l ++ BuildRounded.verticalScales L c (n + 1))) := by
      simp only [BuildRounded.radii, List.map_append, List.append_assoc]
    rw [e1, e2]
    generalize l ++ BuildRounded.verticalScales L c (n + 1) = l' at hl'
    split_ifs with h1 h2 h2
    · exact Or.inl rfl
    · exact ih (n + 1) l' (by push_cast at *; linarith) hl'
    · exact Or.inl rfl
    · refine Or.inr ⟨n + 1, l', by omega, ?_, hl', rfl⟩
      rw [tooFar_rounded, not_lt] at h2
      exact h2

/-- **C115** For every floating point library, every cell with finite largest `dx` and `dy`, the loops end:
each raises `AttributeError` or returns after at most `100 max` rounds, with one radius for each pair of scale
factors that was tried. -/
theorem C115_ends [Archimedean K] (c : Shallot.Cell K) (mx my : K) (hx : c.maxX = .fin mx) (hy : c.maxY = .fin my) :
    BuildRounded.horizontalLoop L c 1 [] [] = some (.error .attributeError) ∨
    ∃ (k : ℕ) (l : List (XF K × XF K)), 0 < k ∧ (k : K) ≤ L.rnd (100 * mx) ∧ (∀ p ∈ l, TriedH L c k p) ∧
      BuildRounded.horizontalLoop L c 1 [] [] = some (.ok (l.map Prod.snd, BuildRounded.radii L c l)) ∧
      (BuildRounded.verticalLoop L c 1 (l.map Prod.snd) (BuildRounded.radii L c l) =
          some (.error .attributeError) ∨
       ∃ (k' : ℕ) (l' : List (XF K × XF K)), 0 < k' ∧ (k' : K) ≤ L.rnd (100 * my) ∧ (∀ p ∈ l', TriedV L c k' p) ∧
        BuildRounded.verticalLoop L c 1 (l.map Prod.snd) (BuildRounded.radii L c l) =
          some (.ok ((l ++ l').map Prod.snd, BuildRounded.radii L c (l ++ l')))) := by
  obtain ⟨d, hd⟩ := exists_nat_gt (L.rnd (100 * mx))
  obtain ⟨d', hd'⟩ := exists_nat_gt (L.rnd (100 * my))
  rcases horizontal_ends L c mx hx d 0 [] (by push_cast; linarith) (by simp) with h | ⟨k, l, h1, h2, h3, h4⟩
  · exact Or.inl h
  · refine Or.inr ⟨k, l, h1, h2, h3, h4, ?_⟩
    have := vertical_ends L c my hy l d' 0 [] (by push_cast; linarith) (by simp)
    rw [List.append_nil] at this
    exact this

/-! ## Columns -/

theorem interp_length_rounded (xp fp : List (XF K)) :
    ∀ xs g, (BuildRounded.interpFrom L xp fp xs g).length = xs.length := by
  intro xs
  induction xs with
  | nil => intro g; rfl
  | cons x xs ih => intro g; simp [BuildRounded.interpFrom, ih]

/-- Every value of `np.interp` is one step of the search from some guess. -/
theorem interp_get_rounded (xp fp : List (XF K)) : ∀ xs g i (hi : i < xs.length), ∃ g',
    (BuildRounded.interpFrom L xp fp xs g)[i]? = some (BuildRounded.interpOne L xp fp xs[i] g').1 := by
  intro xs
  induction xs with
  | nil => intro g i hi; simp at hi
  | cons x xs ih =>
    intro g i hi
    cases i with
    | zero => exact ⟨g, rfl⟩
    | succ i =>
      obtain ⟨g', h⟩ := ih (BuildRounded.interpOne L xp fp x g).2 i (by simpa using hi)
      exact ⟨g', by simpa [BuildRounded.interpFrom] using h⟩

/-- The two sides of the smallest radius. -/
theorem scales_rounded (dy : XF K) (rf fy radius : List (XF K)) (hne : rf ≠ []) (i : ℕ)
    (hi : nanargmin radius = .ok i) :
    ∃ v : List (XF K), BuildRounded.interpolateScales L dy rf fy radius =
        .ok (v.map (GeometryRounded.determineFx L dy), v) ∧ v.length = 2 * rf.length - 1 ∧
      v[rf.length - 1]? = some (sampleAt fy i) ∧
      (∀ k, 0 < k → k < rf.length → v[rf.length - 1 + k]? = (BuildRounded.npInterp L rf
        ((radius.map fun r => L.div r (nanminOf radius)).drop i) (fy.drop i))[k]?) ∧
      (∀ k, 0 < k → k < rf.length → v[rf.length - 1 - k]? = (BuildRounded.npInterp L rf
        ((radius.map fun r => L.div r (nanminOf radius)).take (i + 1)).reverse
        (fy.take (i + 1)).reverse)[k]?) := by
  have hn : 0 < rf.length := List.length_pos_iff.2 hne
  unfold BuildRounded.interpolateScales
  simp only
  rw [hi, ok_bind]
  refine ⟨_, rfl, ?_, ?_, ?_, ?_⟩
  · simp only [List.length_append, List.length_dropLast, List.length_reverse, List.length_tail,
      BuildRounded.npInterp, interp_length_rounded, List.length_singleton]
    omega
  · rw [List.append_assoc, List.getElem?_append_right (by
      simp [BuildRounded.npInterp, interp_length_rounded])]
    simp [BuildRounded.npInterp, interp_length_rounded]
  · intro k h0 hk
    rw [List.append_assoc, List.getElem?_append_right (by
      simp [BuildRounded.npInterp, interp_length_rounded])]
    simp only [List.length_dropLast, List.length_reverse, BuildRounded.npInterp, interp_length_rounded]
    rw [show rf.length - 1 + k - (rf.length - 1) = k by omega]
    obtain ⟨k, rfl⟩ : ∃ j, k = j + 1 := ⟨k - 1, by omega⟩
    simp
  · intro k h0 hk
    rw [List.append_assoc, List.getElem?_append_left (by
      simp [BuildRounded.npInterp, interp_length_rounded]; omega)]
    rw [List.getElem?_dropLast, if_pos (by simp [BuildRounded.npInterp, interp_length_rounded]; omega),
      List.getElem?_reverse (by simp [BuildRounded.npInterp, interp_length_rounded]; omega)]
    simp only [BuildRounded.npInterp, interp_length_rounded]
    congr 1
    omega

/-- **C115** Whatever the rounding: a column has `2 num_rf - 1` disks, and each of them is computed from its own
pair of scale factors, `fx` being the one that belongs to `fy`; the middle `fy` is that of the smallest radius that
was tried. -/
theorem C115_column (c : Shallot.Cell K) (rf : List (XF K)) (hne : rf ≠ []) (col : Shallot.Column K)
    (h : BuildRounded.column L c rf = .ok col) :
    col.fyValid.length = 2 * rf.length - 1 ∧ col.fx.length = 2 * rf.length - 1 ∧
    col.diskRadius.length = 2 * rf.length - 1 ∧ col.inclination.length = 2 * rf.length - 1 ∧
    col.tilt.length = 2 * rf.length - 1 ∧
    (∃ i, nanargmin col.radius = .ok i ∧ col.fyValid[rf.length - 1]? = some (sampleAt col.fy i)) ∧
    ∀ (j : ℕ) (y : XF K), col.fyValid[j]? = some y → ∃ x r i t, col.fx[j]? = some x ∧
      col.diskRadius[j]? = some r ∧ col.inclination[j]? = some i ∧ col.tilt[j]? = some t ∧
      x = GeometryRounded.determineFx L c.dy y ∧
      (r, i, t) = GeometryRounded.diskParameters L x y c.shear c.radius := by
  unfold BuildRounded.column at h
  cases h1 : Shallot.ended (BuildRounded.horizontalLoop L c 1 [] []) with
  | error e => rw [h1, error_bind] at h; cases h
  | ok p =>
  rw [h1, ok_bind] at h
  cases h2 : Shallot.ended (BuildRounded.verticalLoop L c 1 p.1 p.2) with
  | error e => rw [h2, error_bind] at h; cases h
  | ok q =>
  rw [h2, ok_bind] at h
  cases h3 : nanargmin q.2 with
  | error e =>
    have : BuildRounded.interpolateScales L c.dy rf q.1 q.2 = .error e := by
      unfold BuildRounded.interpolateScales
      simp only
      rw [h3, error_bind]
    rw [this, error_bind] at h
    cases h
  | ok i =>
    obtain ⟨v, hv, hvl, hmid, -⟩ := scales_rounded L c.dy rf q.1 q.2 hne i h3
    rw [hv, ok_bind] at h
    cases h
    refine ⟨hvl, by simp [hvl], by simp [hvl], by simp [hvl], by simp [hvl], ⟨i, h3, hmid⟩, ?_⟩
    intro j y hy
    have hy : v[j]? = some y := hy
    have hx : (v.map (GeometryRounded.determineFx L c.dy))[j]? = some (GeometryRounded.determineFx L c.dy y) := by
      rw [List.getElem?_map, hy]; rfl
    have hz : ((v.map (GeometryRounded.determineFx L c.dy)).zip v)[j]? =
        some (GeometryRounded.determineFx L c.dy y, y) := by
      rw [List.getElem?_zip_eq_some]; exact ⟨hx, hy⟩
    refine ⟨_, _, _, _, hx, ?_, ?_, ?_, rfl, rfl⟩ <;> simp only [List.getElem?_map, hz] <;> rfl

end

/-! ## Interpolated scale factors -/

section
variable (L : FloatLib ℝ) {u : ℝ}

/-- One rounded segment: the number on the segment, up to `22 u` times the larger end. -/
theorem segment_error (hr : Rounds L.rnd u) (hu : 0 ≤ u) (hu1 : 40 * u ≤ 1) {a b c d x : ℝ} (hax : a ≤ x)
    (hxb : x < b) :
    ∃ v t : ℝ, L.add (L.mul (L.div (L.sub (.fin d) (.fin c)) (L.sub (.fin b) (.fin a))) (L.sub (.fin x) (.fin a)))
        (.fin c) = .fin v ∧ 0 ≤ t ∧ t ≤ 1 ∧ |v - (c + t * (d - c))| ≤ 22 * u * max |c| |d| := by
  have hba : 0 < b - a := by linarith
  have n1 := RelNear.rnd_self hr (d - c)
  have n2 := RelNear.rnd_self hr (b - a)
  have n3 := RelNear.rnd_self hr (x - a)
  have hpos : 0 < L.rnd (b - a) := n2.pos hba (by linarith)
  have n4 : RelNear (2 * (1 * u)) (1 / L.rnd (b - a)) (1 / (b - a)) := n2.inv hba (by linarith) (by linarith)
  rw [show 2 * (1 * u) = 2 * u by ring] at n4
  have n5 : RelNear (4 * u) (L.rnd (d - c) * (1 / L.rnd (b - a))) ((d - c) * (1 / (b - a))) :=
    n1.mul n4 hu (by norm_num) (by norm_num) (by linarith) (by norm_num)
  rw [mul_one_div, mul_one_div] at n5
  have n6 : RelNear (6 * u) (L.rnd (L.rnd (d - c) / L.rnd (b - a))) ((d - c) / (b - a)) :=
    n5.rnd hr hu (by linarith) (by norm_num)
  have n7 : RelNear (8 * u) (L.rnd (L.rnd (d - c) / L.rnd (b - a)) * L.rnd (x - a)) ((d - c) / (b - a) * (x - a)) :=
    n6.mul n3 hu (by norm_num) (by norm_num) (by linarith) (by norm_num)
  have n8 : RelNear (10 * u) (L.rnd (L.rnd (L.rnd (d - c) / L.rnd (b - a)) * L.rnd (x - a)))
      ((d - c) / (b - a) * (x - a)) := n7.rnd hr hu (by linarith) (by norm_num)
  refine ⟨L.rnd (L.rnd (L.rnd (L.rnd (d - c) / L.rnd (b - a)) * L.rnd (x - a)) + c), (x - a) / (b - a), ?_,
    div_nonneg (by linarith) hba.le, (div_le_one hba).2 (by linarith), ?_⟩
  · rw [FloatLib.sub_fin, FloatLib.sub_fin, FloatLib.sub_fin, FloatLib.div_fin _ _ _ hpos.ne', FloatLib.mul_fin,
      FloatLib.add_fin]
  · have e : (x - a) / (b - a) * (d - c) = (d - c) / (b - a) * (x - a) := by ring
    have t0 : 0 ≤ (x - a) / (b - a) := div_nonneg (by linarith) hba.le
    have t1 : (x - a) / (b - a) ≤ 1 := (div_le_one hba).2 (by linarith)
    have hc : |c| ≤ max |c| |d| := le_max_left _ _
    have hd : |d| ≤ max |c| |d| := le_max_right _ _
    set M := max |c| |d|
    have hM : 0 ≤ M := (abs_nonneg c).trans hc
    generalize hw : L.rnd (L.rnd (L.rnd (d - c) / L.rnd (b - a)) * L.rnd (x - a)) = w at n8
    have hP : |(d - c) / (b - a) * (x - a)| ≤ 2 * M := by
      rw [← e, abs_mul, abs_of_nonneg t0]
      have h1 := abs_sub d c
      have h2 := mul_le_mul t1 h1 (abs_nonneg _) zero_le_one
      linarith
    have hS : |c + (d - c) / (b - a) * (x - a)| ≤ M := by
      rw [← e, show c + (x - a) / (b - a) * (d - c) = (1 - (x - a) / (b - a)) * c + (x - a) / (b - a) * d by ring]
      refine (abs_add_le _ _).trans ?_
      rw [abs_mul, abs_mul, abs_of_nonneg t0, abs_of_nonneg (sub_nonneg.2 t1)]
      have h1 := mul_le_mul_of_nonneg_left hc (sub_nonneg.2 t1)
      have h2 := mul_le_mul_of_nonneg_left hd t0
      linarith
    rw [e]
    set P := (d - c) / (b - a) * (x - a)
    have n9 : |w - P| ≤ 10 * u * |P| := n8
    have n10 : |w - P| ≤ 20 * u * M := n9.trans (by
      have := mul_le_mul_of_nonneg_left hP (show 0 ≤ 10 * u by linarith)
      linarith)
    have n11 : |L.rnd (w + c) - (w + c)| ≤ u * |w + c| := hr (w + c)
    have n12 : |w + c| ≤ 2 * M := by
      have h1 : |w + c| ≤ |w - P| + |c + P| := by
        refine le_trans (le_of_eq ?_) (abs_add_le _ _)
        congr 1; ring
      have h2 := mul_le_mul_of_nonneg_right hu1 hM
      linarith
    have n13 := mul_le_mul_of_nonneg_left n12 hu
    have n14 : |L.rnd (w + c) - (c + P)| ≤ |L.rnd (w + c) - (w + c)| + |w - P| := by
      refine le_trans (le_of_eq ?_) (abs_add_le _ _)
      congr 1; ring
    linarith

/-- `v` is a number between two numbers of `l`, up to `ε` times the larger of them. -/
def Spec.Nearly (ε : ℝ) (l : List (XF ℝ)) (v : XF ℝ) : Prop :=
  ∃ a b w : ℝ, .fin a ∈ l ∧ .fin b ∈ l ∧ v = .fin w ∧
    a - ε * max |a| |b| ≤ w ∧ w ≤ b + ε * max |a| |b|

theorem nearly_self (l : List (XF ℝ)) (hl : ∀ y ∈ l, Plain y) {i : ℕ} (hi : i < l.length) (ε : ℝ) (hε : 0 ≤ ε) :
    sampleAt l i = .nan ∨ Nearly ε l (sampleAt l i) := by
  rcases sampleAt_plain l hl i with h | ⟨a, h⟩
  · exact Or.inl h
  · right
    have hm := sampleAt_mem l hi
    rw [h] at hm
    refine ⟨a, a, a, hm, hm, h, ?_, ?_⟩
    · have := mul_nonneg hε ((abs_nonneg a).trans (le_max_left |a| |a|))
      linarith
    · have := mul_nonneg hε ((abs_nonneg a).trans (le_max_left |a| |a|))
      linarith

theorem nan_sub_right (a : XF ℝ) : L.sub a .nan = .nan := by cases a <;> rfl
theorem nan_sub_left (a : XF ℝ) : L.sub .nan a = .nan := by cases a <;> rfl
theorem nan_div_right (a : XF ℝ) : L.div a .nan = .nan := by cases a <;> rfl
theorem nan_div_left (a : XF ℝ) : L.div .nan a = .nan := by cases a <;> rfl
theorem nan_mul_left (a : XF ℝ) : L.mul .nan a = .nan := by cases a <;> rfl
theorem nan_mul_right (a : XF ℝ) : L.mul a .nan = .nan := by cases a <;> rfl
theorem nan_add_left (a : XF ℝ) : L.add .nan a = .nan := by cases a <;> rfl
theorem nan_add_right (a : XF ℝ) : L.add a .nan = .nan := by cases a <;> rfl

theorem segment_nearly (hr : Rounds L.rnd u) (hu : 0 ≤ u) (hu1 : 40 * u ≤ 1) (x : ℝ) (xp fp : List (XF ℝ)) (j : ℕ)
    (hj : j + 1 < fp.length) (hfp : ∀ y ∈ fp, Plain y) (hxp : ∀ y ∈ xp, Plain y)
    (h1 : XF.lt (.fin x) (sampleAt xp j) = false)
    (h2 : XF.le (sampleAt xp (j + 1)) (.fin x) = false) :
    BuildRounded.segment L (.fin x) xp fp j = .nan ∨
      Nearly (22 * u) fp (BuildRounded.segment L (.fin x) xp fp j) := by
  have hself := nearly_self fp hfp (show j < fp.length by omega) (22 * u) (by linarith)
  have m1 := sampleAt_mem fp (show j < fp.length by omega)
  have m2 := sampleAt_mem fp hj
  unfold BuildRounded.segment
  rcases sampleAt_plain xp hxp j with a | ⟨a, ha⟩
  · simp only [a, nan_sub_right, nan_div_right, nan_mul_left, nan_add_left, XF.isNan_nan, if_true, Bool.true_and]
    split_ifs
    · exact hself
    · exact Or.inl rfl
  · rcases sampleAt_plain xp hxp (j + 1) with b | ⟨b, hb⟩
    · simp only [b, nan_sub_left, nan_div_right, nan_mul_left, nan_add_left, XF.isNan_nan, if_true, Bool.true_and]
      split_ifs
      · exact hself
      · exact Or.inl rfl
    · rw [ha] at h1
      rw [hb] at h2
      have hax : a ≤ x := by simpa using h1
      have hxb : x < b := by simpa using h2
      rw [ha, hb]
      rcases sampleAt_plain fp hfp j with c | ⟨c, hc⟩
      · simp only [c, nan_sub_right, nan_div_left, nan_mul_left, nan_add_left, XF.isNan_nan, if_true, Bool.true_and]
        split_ifs
        · exact Or.inl rfl
        · exact Or.inl rfl
      · rcases sampleAt_plain fp hfp (j + 1) with d | ⟨d, hd⟩
        · have : XF.eqb (sampleAt fp j) .nan = false := by rw [hc]; rfl
          simp only [d, nan_sub_left, nan_div_left, nan_mul_left, nan_add_left, XF.isNan_nan, if_true, Bool.true_and,
            this]
          exact Or.inl rfl
        · rw [hc] at m1
          rw [hd] at m2
          rw [hc, hd]
          obtain ⟨v, t, ev, t0, t1, hv⟩ := segment_error L hr hu hu1 (c := c) (d := d) hax hxb
          simp only [ev, XF.isNan_fin, Bool.false_eq_true, if_false]
          right
          have hv := abs_le.1 hv
          rcases le_total c d with h | h
          · refine ⟨c, d, v, m1, m2, rfl, ?_, ?_⟩
            · have := mul_nonneg t0 (sub_nonneg.2 h)
              linarith
            · have := mul_le_mul_of_nonneg_right t1 (sub_nonneg.2 h)
              linarith
          · rw [max_comm] at hv
            refine ⟨d, c, v, m2, m1, rfl, ?_, ?_⟩
            · have := mul_le_mul_of_nonneg_right t1 (sub_nonneg.2 h)
              linarith
            · have := mul_nonneg t0 (sub_nonneg.2 h)
              linarith

theorem interpOne_nearly (hr : Rounds L.rnd u) (hu : 0 ≤ u) (hu1 : 40 * u ≤ 1) (xp fp : List (XF ℝ)) (x : ℝ)
    (guess : ℕ) (hlen : fp.length = xp.length)
    (hne : 1 ≤ xp.length) (hfp : ∀ y ∈ fp, Plain y) (hxp : ∀ y ∈ xp, Plain y) :
    (BuildRounded.interpOne L xp fp (.fin x) guess).1 = .nan ∨
      Nearly (22 * u) fp (BuildRounded.interpOne L xp fp (.fin x) guess).1 := by
  have hself : ∀ i < fp.length, sampleAt fp i = .nan ∨ Nearly (22 * u) fp (sampleAt fp i) := fun i hi =>
    nearly_self fp hfp hi (22 * u) (by linarith)
  unfold BuildRounded.interpOne
  by_cases h1 : xp.length = 1
  · rw [if_pos h1]; exact hself _ (by omega)
  · rw [if_neg h1]
    simp only [XF.isNan_fin, Bool.false_eq_true, if_false]
    by_cases h2 : XF.lt (sampleAt xp (xp.length - 1)) (.fin x) = true
    · rw [if_pos h2]; exact hself _ (by omega)
    · rw [if_neg h2]
      by_cases h3 : XF.lt (.fin x) (sampleAt xp 0) = true
      · rw [if_pos h3]; exact hself _ (by omega)
      · rw [if_neg h3]
        obtain ⟨a, b, c⟩ := search_spec (.fin x) xp guess (by omega) (by simp) (by simpa using h3)
        cases hj : searchInside (.fin x) xp guess with
        | zero => exact hself _ (by omega)
        | succ j =>
          rw [hj] at a b c
          simp only
          by_cases h4 : j = xp.length - 1
          · rw [if_pos h4]; exact hself _ (by omega)
          · rw [if_neg h4]
            by_cases h5 : XF.eqb (sampleAt xp j) (.fin x) = true
            · rw [if_pos h5]; exact hself _ (by omega)
            · rw [if_neg h5]
              refine segment_nearly L hr hu hu1 x xp fp j (by omega) hfp hxp ?_ ?_
              · rcases b with b | b
                · omega
                · simpa using b
              · rcases c with c | c
                · omega
                · exact c

theorem npInterp_nearly (hr : Rounds L.rnd u) (hu : 0 ≤ u) (hu1 : 40 * u ≤ 1) (xs xp fp : List (XF ℝ))
    (hlen : fp.length = xp.length) (hne : 1 ≤ xp.length) (hxs : ∀ x ∈ xs, ∃ k, x = .fin k)
    (hfp : ∀ y ∈ fp, Plain y) (hxp : ∀ y ∈ xp, Plain y) :
    ∀ v ∈ BuildRounded.npInterp L xs xp fp, v = .nan ∨ Nearly (22 * u) fp v := by
  intro v hv
  obtain ⟨i, hi, rfl⟩ := List.getElem_of_mem hv
  have hi' : i < xs.length := by rwa [BuildRounded.npInterp, interp_length_rounded] at hi
  obtain ⟨g', hg⟩ := interp_get_rounded L xp fp xs 0 i hi'
  unfold BuildRounded.npInterp at hi ⊢
  rw [List.getElem?_eq_getElem hi] at hg
  rw [Option.some.inj hg]
  obtain ⟨k, hk⟩ := hxs _ (List.getElem_mem hi')
  rw [hk]
  exact interpOne_nearly L hr hu hu1 xp fp k g' hlen hne hfp hxp

/-- **C115** In floating point, every interpolated `fy` is NaN or between two `fy` that were tried, up to `22 u` of
the larger one: before the middle between two on the horizontal side of the smallest disk, after it between two on
the vertical side. -/
theorem C115_scales (hr : Rounds L.rnd u) (hu : 0 ≤ u) (hu1 : 40 * u ≤ 1) (dy : XF ℝ) (rf fy radius : List (XF ℝ))
    (hlen : fy.length = radius.length) (hne : rf ≠ []) (hrf : ∀ x ∈ rf, ∃ k, x = .fin k) (hfy : ∀ x ∈ fy, Plain x)
    (hrad : ∀ x ∈ radius, Plain x) (h0 : ∀ x ∈ radius, x ≠ .fin 0) (fx fyValid : List (XF ℝ))
    (h : BuildRounded.interpolateScales L dy rf fy radius = .ok (fx, fyValid)) :
    ∃ (i : ℕ) (m : ℝ), radius[i]? = some (.fin m) ∧ (∀ x ∈ radius, x = .nan ∨ LessEq (.fin m) x) ∧
      fyValid[rf.length - 1]? = fy[i]? ∧
      (∀ k x, k < rf.length - 1 → fyValid[k]? = some x → x = .nan ∨ Nearly (22 * u) (fy.take (i + 1)) x) ∧
      (∀ k x, rf.length - 1 < k → fyValid[k]? = some x → x = .nan ∨ Nearly (22 * u) (fy.drop i) x) := by
  cases hi : nanargmin radius with
  | error e =>
    unfold BuildRounded.interpolateScales at h
    simp only at h
    rw [hi, error_bind] at h
    cases h
  | ok i =>
    obtain ⟨hil, m, hm, hmin⟩ := nanargmin_plain radius hrad i hi
    obtain ⟨v, hv, hvl, hmid, hup, hdown⟩ := scales_rounded L dy rf fy radius hne i hi
    rw [hv] at h
    cases h
    have hget : radius[i]? = some (.fin m) := by
      unfold sampleAt at hm
      rw [List.getD_eq_getElem?_getD, List.getElem?_eq_getElem hil] at hm
      rw [List.getElem?_eq_getElem hil]
      exact congrArg some hm
    have hm0 : m ≠ 0 := by
      rintro rfl
      exact h0 _ (List.mem_of_getElem? hget) rfl
    have hfr : ∀ x ∈ radius.map fun r => L.div r (nanminOf radius), Plain x := by
      intro x hx
      obtain ⟨y, hy, rfl⟩ := List.mem_map.1 hx
      unfold nanminOf
      rw [hmin]
      rcases hrad y hy with rfl | ⟨z, rfl⟩
      · exact Or.inl (nan_div_left L _)
      · exact Or.inr ⟨_, FloatLib.div_fin L z m hm0⟩
    have hlen' : (radius.map fun r => L.div r (nanminOf radius)).length = fy.length := by simp [hlen]
    refine ⟨i, m, hget, ?_, ?_, ?_, ?_⟩
    · intro x hx
      by_cases hxn : x = .nan
      · exact Or.inl hxn
      · exact Or.inr (((nanmin_spec radius).2 _ hmin).2.2 x hx hxn)
    · rw [hmid]
      unfold sampleAt
      rw [List.getD_eq_getElem?_getD, List.getElem?_eq_getElem (by omega)]
      rfl
    · intro k x hk hx
      have := hdown (rf.length - 1 - k) (by omega) (by omega)
      rw [show rf.length - 1 - (rf.length - 1 - k) = k by omega, hx] at this
      have hmem := List.mem_of_getElem? this.symm
      rcases npInterp_nearly L hr hu hu1 rf _ _ (by
            simp only [List.length_reverse, List.length_take, hlen']) (by
            simp only [List.length_reverse, List.length_take, hlen', hlen]; omega) hrf (by
            intro y hy
            rw [List.mem_reverse] at hy
            exact hfy y (List.mem_of_mem_take hy)) (by
            intro y hy
            rw [List.mem_reverse] at hy
            exact hfr y (List.mem_of_mem_take hy)) x hmem with h | ⟨a, b, w, ha, hb, hab⟩
      · exact Or.inl h
      · rw [List.mem_reverse] at ha hb
        exact Or.inr ⟨a, b, w, ha, hb, hab⟩
    · intro k x hk hx
      have hkl : k < 2 * rf.length - 1 := by
        rw [← hvl]; exact (List.getElem?_eq_some_iff.1 hx).1
      have := hup (k - (rf.length - 1)) (by omega) (by omega)
      rw [show rf.length - 1 + (k - (rf.length - 1)) = k by omega, hx] at this
      have hmem := List.mem_of_getElem? this.symm
      exact npInterp_nearly L hr hu hu1 rf _ _ (by simp [hlen]) (by simp; omega) hrf
            (fun y hy => hfy y (List.mem_of_mem_drop hy)) (fun y hy => hfr y (List.mem_of_mem_drop hy)) x hmem

/-! ## The disks of a grid -/

theorem layer_column (g : GridParams ℝ) (num y x r : ℕ) (sel : Shallot.Column ℝ → List (XF ℝ)) (v : ℝ)
    (h : BuildRounded.layer L g num sel y x r = .fin v) :
    ∃ col, BuildRounded.column L (BuildRounded.cellFor L g num y x) g.rf.data = .ok col ∧
      (sel col)[r]? = some (.fin v) ∧
      ∀ sel' : Shallot.Column ℝ → List (XF ℝ), BuildRounded.layer L g num sel' y x r = (sel' col).getD r .nan := by
  unfold BuildRounded.layer at h ⊢
  by_cases hs : (BuildRounded.cellFor L g num y x).shear.isNan = true
  · rw [if_pos hs] at h; cases h
  · rw [if_neg hs] at h
    cases hc : BuildRounded.column L (BuildRounded.cellFor L g num y x) g.rf.data with
    | error e => rw [hc] at h; cases h
    | ok col =>
      rw [hc] at h
      refine ⟨col, rfl, ?_, ?_⟩
      · have h : (sel col).getD r .nan = .fin v := h
        rw [List.getD_eq_getElem?_getD] at h
        cases he : (sel col)[r]? with
        | none => rw [he] at h; cases h
        | some w => rw [he] at h; exact congrArg some h
      · intro sel'
        rw [if_neg hs]

/-- **C115** Where the grid holds an `fy`, it holds with it the disk that is computed for this grid point and this
`fy`. -/
theorem C115_disk (g : GridParams ℝ) (num y x r : ℕ) (hne : g.rf.data ≠ []) (dx dy fy : ℝ)
    (hx : g.dx.data[x]? = some (.fin dx)) (hy : g.dy.data[y]? = some (.fin dy))
    (h : BuildRounded.layer L g num Shallot.Column.fyValid y x r = .fin fy) :
    BuildRounded.layer L g num Shallot.Column.fx y x r = GeometryRounded.determineFx L (.fin dy) (.fin fy) ∧
    (BuildRounded.layer L g num Shallot.Column.diskRadius y x r,
      BuildRounded.layer L g num Shallot.Column.inclination y x r,
      BuildRounded.layer L g num Shallot.Column.tilt y x r) =
        GeometryRounded.diskAt L (.fin dx) (.fin dy) (.fin fy) := by
  obtain ⟨col, h1, h2, h3⟩ := layer_column L g num y x r _ fy h
  obtain ⟨-, -, -, -, -, -, h4⟩ := C115_column L _ _ hne col h1
  obtain ⟨a, R, i, t, e1, e2, e3, e4, e5, e6⟩ := h4 r _ h2
  have gx : g.dx.data.getD x .nan = .fin dx := by rw [List.getD_eq_getElem?_getD, hx]; rfl
  have gy : g.dy.data.getD y .nan = .fin dy := by rw [List.getD_eq_getElem?_getD, hy]; rfl
  have c1 : (BuildRounded.cellFor L g num y x).dy = .fin dy := gy
  have c2 : (BuildRounded.cellFor L g num y x).shear = GeometryRounded.shear L (.fin dx) (.fin dy) := by
    unfold BuildRounded.cellFor; simp only [gx, gy]
  have c3 : (BuildRounded.cellFor L g num y x).radius = GeometryRounded.circularRadius L (.fin dy) := by
    unfold BuildRounded.cellFor; simp only [gy]
  rw [c1] at e5
  rw [c2, c3, e5] at e6
  simp only [h3, List.getD_eq_getElem?_getD, e1, e2, e3, e4, Option.getD_some]
  exact ⟨e5, e6⟩

/-- **C115** In a grid that is built in floating point, the disk with scale factor `fy` passes both ends of the
eclipse up to the error of `C108_ends`. -/
theorem C115_edge (hL : Accurate L u) (g : GridParams ℝ) (num y x r : ℕ) (hne : g.rf.data ≠ []) (dx dy fy fx R i t : ℝ)
    (hgx : g.dx.data[x]? = some (.fin dx)) (hgy : g.dy.data[y]? = some (.fin dy))
    (hl : BuildRounded.layer L g num Shallot.Column.fyValid y x r = .fin fy)
    (h : dy ≠ 0 ∨ dx = 0) (hy : 0 < fy) (hfx : Geometry.determineFx (.fin dy) (.fin fy) = .fin fx)
    (hdisk : Geometry.diskParameters (Geometry.determineFx (.fin dy) (.fin fy)) (.fin fy)
      (Geometry.shear (.fin dx) (.fin dy)) (Geometry.circularRadius (.fin dy)) = (.fin R, .fin i, .fin t))
    (hw : 1000 * u * width dy fx * (1 / cos (rad i)) ≤ 1) (hi : 5000 * u * (1 / cos (rad i)) ^ 2 ≤ 1)
    (hdx : 100 * u * |dx| ≤ 1) :
    ∃ R' i' t', BuildRounded.layer L g num Shallot.Column.diskRadius y x r = .fin R' ∧
      BuildRounded.layer L g num Shallot.Column.inclination y x r = .fin i' ∧
      BuildRounded.layer L g num Shallot.Column.tilt y x r = .fin t' ∧
      0 < R' ∧ 0 < cos (rad i') ∧ ∀ e : ℝ, e = 1 / 2 ∨ e = -1 / 2 →
        |level R' (R' * cos (rad i')) (rad t') (e - dx, -dy) - 1| ≤
          u * (101 * width dy fx + 5 * |dx| + 12000 * (1 / cos (rad i)) ^ 2) := by
  obtain ⟨-, e⟩ := C115_disk L g num y x r hne dx dy fy hgx hgy hl
  obtain ⟨R', i', t', e', h1, h2, h3⟩ := C108_ends L u hL dx dy fy fx R i t h hy hfx hdisk hw hi hdx
  rw [e', Prod.mk.injEq, Prod.mk.injEq] at e
  exact ⟨R', i', t', e.1, e.2.1, e.2.2, h1, h2, h3⟩

/-- **C115** A grid point on the path of the star, off its centre, gets no disk, whatever the rounding. -/
theorem C115_axis (g : GridParams ℝ) (num y x r : ℕ) (dx : ℝ) (h : dx ≠ 0)
    (hgx : g.dx.data[x]? = some (.fin dx)) (hgy : g.dy.data[y]? = some (.fin 0))
    (sel : Shallot.Column ℝ → List (XF ℝ)) : BuildRounded.layer L g num sel y x r = .nan := by
  have gx : g.dx.data.getD x .nan = .fin dx := by rw [List.getD_eq_getElem?_getD, hgx]; rfl
  have gy : g.dy.data.getD y .nan = .fin 0 := by rw [List.getD_eq_getElem?_getD, hgy]; rfl
  have c2 : (BuildRounded.cellFor L g num y x).shear = .nan := by
    unfold BuildRounded.cellFor GeometryRounded.shear
    simp only [gx, gy]
    simp [h]
  unfold BuildRounded.layer
  rw [c2]
  rfl

/-- **C111** On the horizontal axis, off its centre, nothing becomes of the rounding of an extended grid: the grid
holds no scale factors there, so wherever the mirror image is put the gradient is NaN, with rounding and without. -/
theorem C111_axis (g : GridParams ℝ) (num y x r : ℕ) (dx : ℝ) (h : dx ≠ 0)
    (hgx : g.dx.data[x]? = some (.fin dx)) (hgy : g.dy.data[y]? = some (.fin 0)) (p x' y' s : XF ℝ) :
    GeometryRounded.diskGradient L p x' y' s (BuildRounded.layer L g num Shallot.Column.fx y x r)
        (BuildRounded.layer L g num Shallot.Column.fyValid y x r) = .nan ∧
    Geometry.diskGradient p x' y' s (BuildRounded.layer .exact g num Shallot.Column.fx y x r)
        (BuildRounded.layer .exact g num Shallot.Column.fyValid y x r) = .nan := by
  have key : ∀ L : FloatLib ℝ, GeometryRounded.diskGradient L p x' y' s
      (BuildRounded.layer L g num Shallot.Column.fx y x r)
      (BuildRounded.layer L g num Shallot.Column.fyValid y x r) = .nan := by
    intro L
    rw [C115_axis L g num y x r dx h hgx hgy, C115_axis L g num y x r dx h hgx hgy]
    have hq : L.sq .nan = .nan := rfl
    simp only [GeometryRounded.diskGradient, hq, nan_mul_right, nan_mul_left, nan_sub_left, nan_sub_right,
      nan_add_left, nan_add_right, nan_div_left]
    split_ifs <;> rfl
  refine ⟨key L, ?_⟩
  have := key .exact
  rwa [diskGradient_exact] at this

/-- A grid with one point at `(1, 1)` and the radius factors 1 and 2. -/
def onePoint : GridParams ℝ :=
  ⟨⟨[1, 1, 1], [.fin 1]⟩, ⟨[1, 1, 1], [.fin 1]⟩, ⟨[2], [.fin 1, .fin 2]⟩, ⟨[3], [.fin 2, .fin 1, .fin 2]⟩,
    (1, 1, 3), (1, 1), false⟩

/-- Such a grid holds a scale factor: the theorems above say something about it. -/
example : ∃ fy : ℝ, BuildRounded.layer .exact onePoint 100 Shallot.Column.fyValid 0 0 1 = .fin fy := by
  have hpi : (RealFns.pi : ℝ) ≠ 0 := Real.pi_ne_zero
  obtain ⟨col, hcol⟩ : ∃ col, Shallot.column ⟨.fin 1, Geometry.shear (.fin 1) (.fin 1),
      Geometry.circularRadius (.fin (1 : ℝ)), .fin 1, .fin 1, .fin 2, 100⟩ [.fin 1, .fin 2] = .ok col := by
    refine C58_column _ 1 1 1 1 2 ⟨rfl, rfl, rfl, Or.inl one_ne_zero, ⟨1, rfl⟩, ⟨1, rfl⟩⟩ rfl one_pos rfl
      one_pos (by norm_num) rfl (by norm_num) _ (by simp) 4 (by norm_num) (by norm_num) ?_ 4
      (by norm_num) (by norm_num) ?_ <;>
    · simp [shearOf]; norm_num
  obtain ⟨⟨-, -, -, -, hl⟩, hd, m, -, -, -, hm⟩ := C57_cell _ 1 1
    ⟨rfl, rfl, rfl, Or.inl one_ne_zero, ⟨1, rfl⟩, ⟨1, rfl⟩⟩ _ (by simp) col hcol
  obtain ⟨y, hy⟩ : ∃ y, col.fyValid[1]? = some y := ⟨_, List.getElem?_eq_getElem (by rw [hl]; simp)⟩
  obtain ⟨x, r, i, t, -, e1, e2, -, -, e3⟩ := hd 1 y hy
  have hr : r = .fin m := by
    have : col.diskRadius[1]? = some (.fin m) := hm
    rw [e2] at this
    exact Option.some.inj this
  have hs : Geometry.shear (.fin 1) (.fin (1 : ℝ)) = .fin (-1) := by
    rw [shear_ok 1 1 (Or.inl one_ne_zero)]; simp [shearOf]
  have hcell : BuildRounded.cellFor .exact onePoint 100 0 0 =
      ⟨.fin 1, Geometry.shear (.fin 1) (.fin 1), Geometry.circularRadius (.fin (1 : ℝ)), .fin 1, .fin 1, .fin 2, 100⟩ := by
    unfold BuildRounded.cellFor
    rw [shear_exact, circularRadius_exact]
    rfl
  have hlay : BuildRounded.layer .exact onePoint 100 Shallot.Column.fyValid 0 0 1 = y := by
    unfold BuildRounded.layer
    rw [hcell, column_exact hpi, hs]
    rw [hs] at hcol
    have : onePoint.rf.data = [.fin 1, .fin 2] := rfl
    rw [this, hcol]
    simp only [XF.isNan_fin, Bool.false_eq_true, if_false, List.getD_eq_getElem?_getD, hy, Option.getD_some]
  rw [hlay]
  cases y with
  | fin v => exact ⟨v, rfl⟩
  | nan =>
    exfalso
    have := diskParameters_nan x .nan (Geometry.shear (.fin 1) (.fin (1 : ℝ))) (Geometry.circularRadius (.fin 1))
      (Or.inr rfl)
    rw [e3, hr] at this
    cases this
  | pinf =>
    exfalso
    have hx : x = .nan := by
      rw [e1]
      have h5 : XF.infSign (1 + 4 : ℝ) = .pinf := by unfold XF.infSign; norm_num
      have h6 : XF.infSign (RealFns.sqrt (0 : ℝ)) = .nan := by
        have : RealFns.sqrt (0 : ℝ) = 0 := Real.sqrt_zero
        rw [this]; simp [XF.infSign]
      have h7 : XF.infSign (-RealFns.sqrt (0 : ℝ)) = .nan := by
        have : RealFns.sqrt (0 : ℝ) = 0 := Real.sqrt_zero
        rw [this]; simp [XF.infSign]
      simp [Geometry.determineFx, XF.sq, XF.mul, XF.add, XF.sub, XF.neg, XF.le, XF.div, XF.sqrt, h5, h6, h7]
    have := diskParameters_nan x .pinf (Geometry.shear (.fin 1) (.fin (1 : ℝ))) (Geometry.circularRadius (.fin 1))
      (Or.inl hx)
    rw [e3, hr] at this
    cases this
  | ninf =>
    exfalso
    have hx : x = .nan := by
      rw [e1]
      have h5 : XF.infSign (1 + 4 : ℝ) = .pinf := by unfold XF.infSign; norm_num
      have h6 : XF.infSign (RealFns.sqrt (0 : ℝ)) = .nan := by
        have : RealFns.sqrt (0 : ℝ) = 0 := Real.sqrt_zero
        rw [this]; simp [XF.infSign]
      have h7 : XF.infSign (-RealFns.sqrt (0 : ℝ)) = .nan := by
        have : RealFns.sqrt (0 : ℝ) = 0 := Real.sqrt_zero
        rw [this]; simp [XF.infSign]
      simp [Geometry.determineFx, XF.sq, XF.mul, XF.add, XF.sub, XF.neg, XF.le, XF.div, XF.sqrt, h5, h6, h7]
    have := diskParameters_nan x .ninf (Geometry.shear (.fin 1) (.fin (1 : ℝ))) (Geometry.circularRadius (.fin 1))
      (Or.inl hx)
    rw [e3, hr] at this
    cases this

end
end Beyonce
