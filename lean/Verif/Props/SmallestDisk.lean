import Verif.Props.Sampling

/-!
# C57: the layer `rf = 1` of a cell is its smallest disk
-/

set_option linter.unusedSectionVars false

namespace Beyonce
open Spec Geometry Real

/-! ## The sampled scale factors are positive -/

theorem between_pos (a b t : ℝ) (ha : 0 < a) (hb : 0 < b) (h0 : 0 ≤ t) (h1 : t ≤ 1) :
    0 < a + t * (b - a) := by
  rcases eq_or_lt_of_le h0 with rfl | h
  · linarith
  · nlinarith [mul_pos h hb, mul_nonneg (sub_nonneg.2 h1) ha.le]

theorem linspace_pos (a b : ℝ) (ha : 0 < a) (hb : 0 < b) (n : ℕ) :
    ∀ x ∈ linspace (.fin a) (.fin b) n, ∃ f : ℝ, 0 < f ∧ x = .fin f := by
  intro x hx
  rcases Nat.lt_or_ge n 2 with h | h
  · obtain rfl | rfl : n = 0 ∨ n = 1 := by omega
    · simp [linspace] at hx
    · rw [linspace_one] at hx
      exact ⟨a, ha, by simpa using hx⟩
  · rw [linspace_fin a b h] at hx
    obtain ⟨j, hj, rfl⟩ := List.mem_map.1 hx
    rw [List.mem_range] at hj
    have hd : (0 : ℝ) < (n : ℝ) - 1 := by
      have : (1 : ℝ) < n := by exact_mod_cast h
      linarith
    refine ⟨_, ?_, rfl⟩
    rw [show (j : ℝ) * ((b - a) / (n - 1)) = j / (n - 1) * (b - a) by ring]
    refine between_pos a b _ ha hb (by positivity) ?_
    rw [div_le_one hd]
    have : ((j + 1 : ℕ) : ℝ) ≤ n := by exact_mod_cast hj
    push_cast at this
    linarith

theorem fxyArray_pos (m : ℝ) (hm : 0 < m) (n num : ℕ) :
    ∀ x ∈ Shallot.fxyArray (.fin m) (n + 1) num, ∃ f : ℝ, 0 < f ∧ x = .fin f := by
  unfold Shallot.fxyArray
  simp only [XF.mul_fin]
  rcases Nat.eq_zero_or_pos n with rfl | hn
  · simp only [zero_add, if_true, Nat.cast_one, one_mul]
    exact linspace_pos 1 m one_pos hm num
  · rw [if_neg (by omega)]
    have h1 : (0 : ℝ) < n := by exact_mod_cast hn
    refine linspace_pos _ _ ?_ (by positivity) num
    push_cast
    rw [add_sub_cancel_right]
    positivity

theorem fxyArray_one (m : ℝ) (num : ℕ) (h : 0 < num) :
    (.fin 1 : XF ℝ) ∈ Shallot.fxyArray (.fin m) 1 num := by
  unfold Shallot.fxyArray
  simp only [XF.mul_fin, if_true, Nat.cast_one, one_mul]
  rcases Nat.lt_or_ge num 2 with h2 | h2
  · obtain rfl : num = 1 := by omega
    rw [linspace_one]; simp
  · rw [linspace_fin 1 m h2]
    exact List.mem_map.2 ⟨0, List.mem_range.2 h, by simp⟩

theorem samplesH_mem (c : Shallot.Cell ℝ) (m : ℝ) (hm : c.maxX = .fin m) (h : 0 < m) (k : ℕ) :
    ∀ p ∈ samplesH c k, ∃ f : ℝ, 0 < f ∧ p = (.fin f, determineFy c.dy (.fin f)) := by
  induction k with
  | zero => simp [samplesH]
  | succ k ih =>
    intro p hp
    rcases List.mem_append.1 hp with hp | hp
    · unfold Shallot.horizontalScales at hp
      rw [List.mem_reverse, hm] at hp
      obtain ⟨x, hx, rfl⟩ := List.mem_map.1 hp
      obtain ⟨f, hf, rfl⟩ := fxyArray_pos m h k c.num x hx
      exact ⟨f, hf, rfl⟩
    · exact ih p hp

theorem samplesH_one (c : Shallot.Cell ℝ) (m : ℝ) (hm : c.maxX = .fin m) (h : 0 < c.num) (k : ℕ)
    (hk : 0 < k) : (.fin 1, determineFy c.dy (.fin 1)) ∈ samplesH c k := by
  induction k with
  | zero => omega
  | succ k ih =>
    rcases Nat.eq_zero_or_pos k with rfl | h0
    · apply List.mem_append.2 (Or.inl _)
      unfold Shallot.horizontalScales
      rw [List.mem_reverse, hm]
      exact List.mem_map.2 ⟨_, fxyArray_one m c.num h, rfl⟩
    · exact List.mem_append.2 (Or.inr (ih h0))

theorem samplesV_mem (c : Shallot.Cell ℝ) (m : ℝ) (hm : c.maxY = .fin m) (h : 0 < m) (k : ℕ) :
    ∀ p ∈ samplesV c k, ∃ f : ℝ, 0 < f ∧ p = (determineFx c.dy (.fin f), .fin f) := by
  induction k with
  | zero => simp [samplesV]
  | succ k ih =>
    intro p hp
    rcases List.mem_append.1 hp with hp | hp
    · exact ih p hp
    · unfold Shallot.verticalScales at hp
      rw [hm] at hp
      obtain ⟨x, hx, rfl⟩ := List.mem_map.1 hp
      obtain ⟨f, hf, rfl⟩ := fxyArray_pos m h k c.num x hx
      exact ⟨f, hf, rfl⟩

/-! ## The disks of the samples -/

theorem disk_degenerate (f R : ℝ) (hf : 0 < f) (hR : 0 < R) :
    (diskParameters (.fin f) (.fin 0) (.fin 0) (.fin R)).1 = .fin (f * R) := by
  have harg : Complex.arg ⟨(0 * 0 + 1) * (0 * 0) - f * f, 2 * f * 0 * 0⟩ = π := by
    have : (⟨(0 * 0 + 1) * (0 * 0) - f * f, 2 * f * 0 * 0⟩ : ℂ) = ((-(f * f) : ℝ) : ℂ) := by
      apply Complex.ext <;> simp
    rw [this]
    exact Complex.arg_ofReal_of_neg (by nlinarith)
  unfold diskParameters
  simp only [vertexAngles_fin, harg, xyAt_fin, XF.hypot_fin]
  have e1 : sheared f 0 0 R (π / 2) = (0, 0) := by simp [sheared]
  have e2 : sheared f 0 0 R (π / 2 + π / 2) = (-(f * R), 0) := by
    simp [sheared]
  rw [e1, e2]
  have e3 : √(-(f * R) * -(f * R) + 0 * 0) = f * R := by
    rw [show -(f * R) * -(f * R) + 0 * 0 = (f * R) ^ 2 by ring, sqrt_sq (by positivity)]
  simp only [e3]
  unfold XF.maximum
  simp only [XF.isNan_fin, Bool.or_false, Bool.false_eq_true, if_false, XF.lt_fin, decide_eq_true_eq]
  rw [if_pos (by simp; positivity)]

theorem disk_unit (R : ℝ) (hR : 0 < R) :
    (diskParameters (.fin 1) (.fin 1) (.fin 0) (.fin R)).1 = .fin R := by
  rw [diskParameters_fin 1 1 0 R one_pos one_pos hR]
  simp only
  congr 1
  unfold norm2 sheared
  simp only
  rw [show (1 * (R * cos (vertex 1 1 0 + π / 2)) - 0 * (1 * (R * sin (vertex 1 1 0 + π / 2)))) ^ 2 +
    (1 * (R * sin (vertex 1 1 0 + π / 2))) ^ 2 = R ^ 2 * (sin (vertex 1 1 0 + π / 2) ^ 2 +
      cos (vertex 1 1 0 + π / 2) ^ 2) by ring, sin_sq_add_cos_sq, mul_one, sqrt_sq hR.le]

theorem disk_plain (x y : XF ℝ) (s R : ℝ) (hR : 0 < R)
    (hx : x = .nan ∨ ∃ f : ℝ, 0 < f ∧ x = .fin f) (hy : y = .nan ∨ ∃ f : ℝ, 0 < f ∧ y = .fin f) :
    (diskParameters x y (.fin s) (.fin R)).1 = .nan ∨
    ∃ r : ℝ, 0 < r ∧ (diskParameters x y (.fin s) (.fin R)).1 = .fin r := by
  rcases hx with rfl | ⟨f, hf, rfl⟩
  · exact Or.inl (diskParameters_nan _ _ _ _ (Or.inl rfl))
  · rcases hy with rfl | ⟨g, hg, rfl⟩
    · exact Or.inl (diskParameters_nan _ _ _ _ (Or.inr rfl))
    · right
      rw [diskParameters_fin f g s R hf hg hR]
      exact ⟨_, size_pos_sheared _ _ _ _ _ hf hg hR, rfl⟩

theorem fx_pos (d f : ℝ) (hf : 0 < f) : determineFx (.fin d) (.fin f) = .nan ∨
    ∃ g : ℝ, 0 < g ∧ determineFx (.fin d) (.fin f) = .fin g := by
  by_cases h : f ^ 2 * (1 + 4 * d ^ 2) ≤ 4 * d ^ 2
  · exact Or.inl ((C54_fx d f hf).1.2 h)
  · right
    rw [not_le] at h
    have h' : 0 < f ^ 2 * (1 + 4 * d ^ 2) - 4 * d ^ 2 := by linarith
    rw [determineFx_fin d f h']
    exact ⟨_, by positivity, rfl⟩

theorem fy_pos (d f : ℝ) (hd : d ≠ 0) (hf : 0 < f) : determineFy (.fin d) (.fin f) = .nan ∨
    ∃ g : ℝ, 0 < g ∧ determineFy (.fin d) (.fin f) = .fin g := by
  by_cases h : f ^ 2 * (1 + 4 * d ^ 2) ≤ 1
  · exact Or.inl ((C54_fy d f hd hf).1.2 h)
  · right
    rw [not_le] at h
    have h' : 0 < f ^ 2 * (1 + 4 * d ^ 2) - 1 := by linarith
    rw [determineFy_fin d f h' (fun h => hd h.1)]
    exact ⟨_, by positivity, rfl⟩

/-- What the theorems below assume of a cell: it lies at `(dx, dy)`, its shear is a number, and the
largest coordinates are finite. -/
structure Spec.CellAt (c : Shallot.Cell ℝ) (dx dy : ℝ) : Prop where
  dy_eq : c.dy = .fin dy
  shear_eq : c.shear = shear (.fin dx) (.fin dy)
  radius_eq : c.radius = circularRadius (.fin dy)
  place : dy ≠ 0 ∨ dx = 0
  maxX : ∃ m, c.maxX = .fin m
  maxY : ∃ m, c.maxY = .fin m

/-- What the samples of a cell satisfy: the disk radius is NaN or positive, and it is the one that
`_determine_fx` gives for the `fy`, but for degenerate samples with a larger radius than the circle. -/
def Spec.SampleOk (c : Shallot.Cell ℝ) (R : ℝ) (p : XF ℝ × XF ℝ) : Prop :=
  Plain p.2 ∧
  ((diskParameters p.1 p.2 c.shear c.radius).1 = .nan ∨
    ∃ r : ℝ, 0 < r ∧ (diskParameters p.1 p.2 c.shear c.radius).1 = .fin r ∧
      ((diskParameters (determineFx c.dy p.2) p.2 c.shear c.radius).1 = .fin r ∨
        (R < r ∧ c.dy = .fin 0)))

theorem sampleH_ok (c : Shallot.Cell ℝ) (dx dy f : ℝ) (h : CellAt c dx dy) (hf : 0 < f) :
    SampleOk c √(1 / 4 + dy ^ 2) (.fin f, determineFy c.dy (.fin f)) := by
  have hR : 0 < √(1 / 4 + dy ^ 2) := sqrt_pos.2 (by positivity)
  obtain ⟨h1, h2, h3, h4, -, -⟩ := h
  rw [shear_ok dx dy h4] at h2
  rw [circularRadius_fin] at h3
  unfold SampleOk
  simp only [h1, h2, h3]
  by_cases hd : dy = 0
  · subst hd
    obtain ⟨o1, o2, o3, o4, o5⟩ := C54_origin f hf
    have hs : shearOf dx 0 = 0 := by simp [shearOf]
    rw [hs]
    rcases lt_trichotomy f 1 with hlt | rfl | hgt
    · rw [o4 hlt]
      exact ⟨Or.inl rfl, Or.inl (diskParameters_nan _ _ _ _ (Or.inr rfl))⟩
    · rw [o2]
      refine ⟨Or.inr ⟨1, rfl⟩, Or.inr ⟨_, hR, disk_unit _ hR, Or.inl ?_⟩⟩
      rw [o1]; exact disk_unit _ hR
    · rw [o3 hgt]
      refine ⟨Or.inr ⟨0, rfl⟩, Or.inr ⟨_, by positivity, disk_degenerate f _ hf hR, Or.inr ⟨?_, rfl⟩⟩⟩
      nlinarith
  · rcases fy_pos dy f hd hf with hn | ⟨g, hg, hgf⟩
    · rw [hn]
      exact ⟨Or.inl rfl, Or.inl (diskParameters_nan _ _ _ _ (Or.inr rfl))⟩
    · have hx := ((C54_inverse dy f g hd hf hg).1).2 hgf
      rw [hgf]
      refine ⟨Or.inr ⟨g, rfl⟩, ?_⟩
      rcases disk_plain (.fin f) (.fin g) (shearOf dx dy) _ hR (Or.inr ⟨f, hf, rfl⟩)
        (Or.inr ⟨g, hg, rfl⟩) with hn | ⟨r, hr, he⟩
      · exact Or.inl hn
      · exact Or.inr ⟨r, hr, he, Or.inl (by rw [hx, he])⟩

theorem sampleV_ok (c : Shallot.Cell ℝ) (dx dy f : ℝ) (h : CellAt c dx dy) (hf : 0 < f) :
    SampleOk c √(1 / 4 + dy ^ 2) (determineFx c.dy (.fin f), .fin f) := by
  have hR : 0 < √(1 / 4 + dy ^ 2) := sqrt_pos.2 (by positivity)
  obtain ⟨h1, h2, h3, h4, -, -⟩ := h
  rw [shear_ok dx dy h4] at h2
  rw [circularRadius_fin] at h3
  unfold SampleOk
  simp only [h1, h2, h3]
  refine ⟨Or.inr ⟨f, rfl⟩, ?_⟩
  rcases disk_plain (determineFx (.fin dy) (.fin f)) (.fin f) (shearOf dx dy) _ hR (fx_pos dy f hf)
    (Or.inr ⟨f, hf, rfl⟩) with hn | ⟨r, hr, he⟩
  · exact Or.inl hn
  · exact Or.inr ⟨r, hr, he, Or.inl he⟩

/-- A column that is there was made from samples of both loops. -/
theorem column_samples (c : Shallot.Cell ℝ) (rf : List (XF ℝ)) (col : Shallot.Column ℝ) (mx my : ℝ)
    (hx : c.maxX = .fin mx) (hy : c.maxY = .fin my) (h : Shallot.column c rf = .ok col) :
    ∃ k l : ℕ, 0 < k ∧ 0 < mx ∧ 0 < my ∧ ∃ fx fy,
      col.fy = (samplesH c k ++ samplesV c l).map Prod.snd ∧
      col.radius = Shallot.radii c (samplesH c k ++ samplesV c l) ∧
      Shallot.interpolateScales c.dy rf col.fy col.radius = .ok (fx, fy) ∧
      col = ⟨col.fy, col.radius,
        (fx.zip fy).map fun f => (diskParameters f.1 f.2 c.shear c.radius).1,
        (fx.zip fy).map fun f => (diskParameters f.1 f.2 c.shear c.radius).2.1,
        (fx.zip fy).map fun f => (diskParameters f.1 f.2 c.shear c.radius).2.2, fx, fy⟩ := by
  unfold Shallot.column at h
  obtain ⟨k, hk, -, -, hH⟩ := C58_horizontal c mx hx
  rcases hH with ⟨hH, -, hkm⟩ | ⟨hH, -⟩
  · rw [hH] at h
    simp only [Shallot.ended, ok_bind] at h
    obtain ⟨l, hl, -, -, hV⟩ := C58_vertical c (samplesH c k) my hy
    rcases hV with ⟨hV, -, hlm⟩ | ⟨hV, -⟩
    · rw [hV] at h
      simp only [ok_bind] at h
      have hk1 : (1 : ℝ) ≤ k := by exact_mod_cast hk
      have hl1 : (1 : ℝ) ≤ l := by exact_mod_cast hl
      refine ⟨k, l, hk, by linarith, by linarith, ?_⟩
      cases hi : Shallot.interpolateScales c.dy rf ((samplesH c k ++ samplesV c l).map Prod.snd)
          (Shallot.radii c (samplesH c k ++ samplesV c l)) with
      | error e => rw [hi, error_bind] at h; cases h
      | ok q =>
        obtain ⟨fx, fy⟩ := q
        rw [hi, ok_bind] at h
        cases h
        refine ⟨fx, fy, rfl, rfl, hi, ?_⟩
        simp only [List.map_map]
        rfl
    · rw [hV] at h
      cases h
  · rw [hH] at h
    cases h

/-- **C57** For every cell whose shear is a number and whatever the sampling: if the build of the cell
succeeds, its five vectors have `2 num_rf - 1` entries; at every layer `fx` belongs to `fy` and the
disk is the one of `fx` and `fy`; and the layer `rf = 1` has the smallest disk radius that was
sampled, which is positive. -/
theorem C57_cell (c : Shallot.Cell ℝ) (dx dy : ℝ) (hc : CellAt c dx dy) (rf : List (XF ℝ))
    (hne : rf ≠ []) (col : Shallot.Column ℝ) (h : Shallot.column c rf = .ok col) :
    (col.diskRadius.length = 2 * rf.length - 1 ∧ col.inclination.length = 2 * rf.length - 1 ∧
      col.tilt.length = 2 * rf.length - 1 ∧ col.fx.length = 2 * rf.length - 1 ∧
      col.fyValid.length = 2 * rf.length - 1) ∧
    (∀ (j : ℕ) (y : XF ℝ), col.fyValid[j]? = some y → ∃ x r i t, col.fx[j]? = some x ∧ x = determineFx c.dy y ∧
      col.diskRadius[j]? = some r ∧ col.inclination[j]? = some i ∧ col.tilt[j]? = some t ∧
      diskParameters x y c.shear c.radius = (r, i, t)) ∧
    ∃ m : ℝ, 0 < m ∧ .fin m ∈ col.radius ∧ (∀ x ∈ col.radius, x = .nan ∨ LessEq (.fin m) x) ∧
      col.diskRadius[rf.length - 1]? = some (.fin m) := by
  obtain ⟨mx, hx⟩ := hc.maxX
  obtain ⟨my, hy⟩ := hc.maxY
  obtain ⟨k, l, hk, hmx, hmy, fx, fy, e1, e2, hi, e3⟩ := column_samples c rf col mx my hx hy h
  have hR : 0 < √(1 / 4 + dy ^ 2) := sqrt_pos.2 (by positivity)
  have hok : ∀ p ∈ samplesH c k ++ samplesV c l, SampleOk c √(1 / 4 + dy ^ 2) p := by
    intro p hp
    rcases List.mem_append.1 hp with hp | hp
    · obtain ⟨f, hf, rfl⟩ := samplesH_mem c mx hx hmx k p hp
      exact sampleH_ok c dx dy f hc hf
    · obtain ⟨f, hf, rfl⟩ := samplesV_mem c my hy hmy l p hp
      exact sampleV_ok c dx dy f hc hf
  have hlen : col.fy.length = col.radius.length := by rw [e1, e2]; simp [Shallot.radii]
  cases hn : nanargmin col.radius with
  | error e =>
    unfold Shallot.interpolateScales at hi
    simp only at hi
    rw [hn, error_bind] at hi
    cases hi
  | ok i =>
    obtain ⟨v, hv, hvl, hmid, -, -⟩ := scales_ok c.dy rf col.fy col.radius hne i hn
    rw [hi] at hv
    simp only [Except.ok.injEq, Prod.mk.injEq] at hv
    obtain ⟨rfl, rfl⟩ := hv
    have hzl : ((fy.map (determineFx c.dy)).zip fy).length = 2 * rf.length - 1 := by
      simp [hvl]
    have hzip : ∀ (j : ℕ) (y : XF ℝ), fy[j]? = some y →
        ((fy.map (determineFx c.dy)).zip fy)[j]? = some (determineFx c.dy y, y) := by
      intro j y hj
      rw [List.getElem?_zip_eq_some]
      exact ⟨by rw [List.getElem?_map, hj]; rfl, hj⟩
    have hrp : ∀ x ∈ col.radius, Plain x := by
      intro x hx
      rw [e2] at hx
      obtain ⟨p, hp, rfl⟩ := List.mem_map.1 hx
      rcases (hok p hp).2 with hn | ⟨r, -, he, -⟩
      · exact Or.inl hn
      · exact Or.inr ⟨r, he⟩
    obtain ⟨hil, m, hm, hmin⟩ := nanargmin_plain col.radius hrp i hn
    have hil' : i < (samplesH c k ++ samplesV c l).length := by
      rw [e2] at hil; simpa [Shallot.radii] using hil
    obtain ⟨p, hp⟩ : ∃ p, (samplesH c k ++ samplesV c l)[i]? = some p :=
      ⟨_, List.getElem?_eq_getElem hil'⟩
    have hpm := List.mem_of_getElem? hp
    have hfi : sampleAt col.fy i = p.2 := by
      unfold sampleAt
      rw [List.getD_eq_getElem?_getD, e1, List.getElem?_map, hp]
      rfl
    have hri : (diskParameters p.1 p.2 c.shear c.radius).1 = .fin m := by
      rw [← hm]
      unfold sampleAt
      rw [List.getD_eq_getElem?_getD, e2]
      unfold Shallot.radii
      rw [List.getElem?_map, hp]
      rfl
    have hle : ∀ x ∈ col.radius, x = .nan ∨ LessEq (.fin m) x := by
      intro x hx
      by_cases hxn : x = .nan
      · exact Or.inl hxn
      · exact Or.inr (((nanmin_spec col.radius).2 _ hmin).2.2 x hx hxn)
    obtain ⟨r, hr0, hr, hagain⟩ := (hok p hpm).2.resolve_left (by rw [hri]; simp)
    rw [hri] at hr
    obtain rfl : m = r := by simpa using hr
    have hmemr : .fin m ∈ col.radius := ((nanmin_spec col.radius).2 _ hmin).1
    have hsame : (diskParameters (determineFx c.dy p.2) p.2 c.shear c.radius).1 = .fin m := by
      rcases hagain with h | ⟨hlt, hd0⟩
      · exact h
      · exfalso
        have hdy0 : dy = 0 := by
          have := hc.dy_eq
          rw [hd0] at this
          simpa using this.symm
        have hnum : 0 < c.num := by
          by_contra h0
          have h0 : c.num = 0 := by omega
          have hz : ∀ mm s, Shallot.fxyArray (mm : XF ℝ) s 0 = [] := by
            intro mm s; simp [Shallot.fxyArray, linspace]
          have hzH : ∀ n, samplesH c n = [] := by
            intro n
            induction n with
            | zero => rfl
            | succ n ih => simp [samplesH, ih, Shallot.horizontalScales, h0, hz]
          have hzV : ∀ n, samplesV c n = [] := by
            intro n
            induction n with
            | zero => rfl
            | succ n ih => simp [samplesV, ih, Shallot.verticalScales, h0, hz]
          rw [hzH, hzV] at hpm
          simp at hpm
        have hone := samplesH_one c mx hx hnum k hk
        have hmem : .fin √(1 / 4 + dy ^ 2) ∈ col.radius := by
          rw [e2]
          refine List.mem_map.2 ⟨_, List.mem_append.2 (Or.inl hone), ?_⟩
          have h2 := hc.shear_eq
          have h3 := hc.radius_eq
          rw [shear_ok dx dy hc.place] at h2
          rw [circularRadius_fin] at h3
          rw [h2, h3, hc.dy_eq, hdy0, (C54_origin 1 one_pos).2.1]
          have hs : shearOf dx 0 = 0 := by simp [shearOf]
          rw [hs]
          rw [hdy0] at hR
          exact disk_unit _ hR
        rcases hle _ hmem with h | h
        · cases h
        · rw [lessEq_iff] at h
          have : m ≤ √(1 / 4 + dy ^ 2) := by simpa using h
          linarith
    refine ⟨?_, ?_, m, hr0, hmemr, hle, ?_⟩
    · rw [e3]
      simp only [List.length_map]
      exact ⟨hzl, hzl, hzl, hvl, hvl⟩
    · intro j y hj
      rw [e3] at hj ⊢
      simp only at hj ⊢
      refine ⟨determineFx c.dy y, (diskParameters (determineFx c.dy y) y c.shear c.radius).1,
        (diskParameters (determineFx c.dy y) y c.shear c.radius).2.1,
        (diskParameters (determineFx c.dy y) y c.shear c.radius).2.2,
        by rw [List.getElem?_map, hj]; rfl, rfl, ?_, ?_, ?_, ?_⟩
      · rw [List.getElem?_map, hzip j y hj]; rfl
      · rw [List.getElem?_map, hzip j y hj]; rfl
      · rw [List.getElem?_map, hzip j y hj]; rfl
      · rfl
    · rw [e3]
      simp only
      rw [List.getElem?_map, hzip _ _ hmid, hfi]
      exact congrArg some hsame

end Beyonce
