import Verif.Props.BuildRounded
import Verif.Props.Getters
import Verif.Props.Disks

/-!
# C121: the Hill radius mask in floating point
-/

set_option linter.unusedSectionVars false

namespace Beyonce
open Spec Real

/-- How far a point of the edge of the disk is from the centre. -/
noncomputable def Spec.reach (dx dy : ℝ) (q : ℝ × ℝ) : ℝ := norm2 (q.1 - dx, q.2 - dy)

/-- The radius of a disk is how far its edge reaches. -/
theorem reach_radius (dx dy fx fy R i t : ℝ) (h : dy ≠ 0 ∨ dx = 0) (hx : 0 < fx) (hy : 0 < fy)
    (hdisk : Geometry.diskParameters (.fin fx) (.fin fy) (Geometry.shear (.fin dx) (.fin dy))
      (Geometry.circularRadius (.fin dy)) = (.fin R, .fin i, .fin t)) :
    (∃ q ∈ curve dx dy fx fy, reach dx dy q = R) ∧ ∀ q ∈ curve dx dy fx fy, reach dx dy q ≤ R := by
  have hρ : 0 < √(1 / 4 + dy ^ 2) := sqrt_pos.2 (by positivity)
  rw [shear_ok dx dy h, circularRadius_fin] at hdisk
  obtain ⟨a, i', t', e, ⟨⟨θ, hθ⟩, hmax⟩, -⟩ := C52_axes fx fy (shearOf dx dy) √(1 / 4 + dy ^ 2) hx hy hρ
  rw [hdisk] at e
  obtain rfl : R = a := by
    injection e with e
    exact XF.fin.inj e
  have hxy : ∀ θ, Geometry.xyAt (.fin fx) (.fin fy) (.fin θ) (.fin (shearOf dx dy)) (.fin √(1 / 4 + dy ^ 2)) =
      (.fin (sheared fx fy (shearOf dx dy) √(1 / 4 + dy ^ 2) θ).1,
        .fin (sheared fx fy (shearOf dx dy) √(1 / 4 + dy ^ 2) θ).2) := fun θ => xyAt_fin _ _ _ _ _
  constructor
  · refine ⟨_, ⟨_, _, θ, _, _, shear_ok dx dy h, circularRadius_fin dy, hxy θ, rfl⟩, ?_⟩
    unfold reach
    simp only [add_sub_cancel_left]
    exact hθ
  · rintro q ⟨s, R', θ', x, y, e1, e2, e3, rfl⟩
    rw [shear_ok dx dy h] at e1
    rw [circularRadius_fin] at e2
    cases e1
    cases e2
    rw [hxy] at e3
    cases e3
    unfold reach
    simp only [add_sub_cancel_left]
    exact hmax ⟨θ', rfl⟩

/-- The mask after `generate_hill_radius_mask`, for a radius that is a number. -/
theorem hill_marks (s : Shallot ℝ) (k : ℕ) (R' : XF ℝ) (hk : s.diskRadius.data.data[k]? = some R') (v : PyVal ℝ) (h : ℝ)
    (hv : IsNumber false v (.fin h)) (h0 : 0 ≤ h) :
    ∃ s', Shallot.hillMask v s = (.ok (), s') ∧ (Marked s'.diskRadius.mask k ↔ R' = .nan ∨ Less (.fin h) R') := by
  obtain ⟨m, e, -, -, hm⟩ := (C44_exact s v).1 (.fin h) hv (by rw [less_iff]; simpa [XF.lt] using h0)
  refine ⟨_, e, ?_⟩
  rw [← hm k R' hk]
  constructor
  · rintro ⟨m', e', h'⟩
    cases e'
    exact h'
  · exact fun h' => ⟨m, rfl, h'⟩

/-- **C121** On a grid that is built in floating point, `generate_hill_radius_mask(h)` masks every disk whose edge
reaches farther than `h` from its centre, and keeps every disk whose edge does not, except for those whose radius is
`h` up to a relative error of `170 u` times the squared width of the disk.  The edge is that of the true disk, without
rounding. -/
theorem C121_mask (L : FloatLib ℝ) (u : ℝ) (hL : Accurate L u) (g : GridParams ℝ) (num y x r : ℕ)
    (hne : g.rf.data ≠ []) (dx dy fy fx : ℝ) (hgx : g.dx.data[x]? = some (.fin dx))
    (hgy : g.dy.data[y]? = some (.fin dy)) (hl : BuildRounded.layer L g num Shallot.Column.fyValid y x r = .fin fy)
    (h : dy ≠ 0 ∨ dx = 0) (hy : 0 < fy) (hfx : Geometry.determineFx (.fin dy) (.fin fy) = .fin fx)
    (hw : 1000 * u * width dy fx ≤ 1) (s : Shallot ℝ) (k : ℕ)
    (hk : s.diskRadius.data.data[k]? = some (BuildRounded.layer L g num Shallot.Column.diskRadius y x r))
    (v : PyVal ℝ) (hill : ℝ) (hv : IsNumber false v (.fin hill)) (h0 : 0 ≤ hill) :
    ∃ s', Shallot.hillMask v s = (.ok (), s') ∧
      ((∃ q ∈ curve dx dy fx fy, hill < (1 - 170 * u * width dy fx) * reach dx dy q) →
        Marked s'.diskRadius.mask k) ∧
      ((∀ q ∈ curve dx dy fx fy, (1 + 170 * u * width dy fx) * reach dx dy q ≤ hill) →
        ¬ Marked s'.diskRadius.mask k) := by
  have hu := hL.nonneg
  obtain ⟨hx, hκ, -⟩ := width_props hy hfx
  obtain ⟨R, i, t, e, -⟩ := C52_axes fx fy (shearOf dx dy) √(1 / 4 + dy ^ 2) hx hy (sqrt_pos.2 (by positivity))
  rw [← circularRadius_fin, ← shear_ok dx dy h] at e
  obtain ⟨⟨q₀, hq₀, er⟩, hmax⟩ := reach_radius dx dy fx fy R i t h hx hy e
  rw [← hfx] at e
  obtain ⟨R', i', t', e', n, -⟩ := C105_disk L u hL dx dy fy fx R i t h hy hfx e hw
  obtain ⟨-, e2⟩ := C115_disk L g num y x r hne dx dy fy hgx hgy hl
  rw [e'] at e2
  have e3 : BuildRounded.layer L g num Shallot.Column.diskRadius y x r = .fin R' := by
    injection e2
  rw [e3] at hk
  obtain ⟨s', es, hm⟩ := hill_marks s k _ hk v hill hv h0
  have hm' : Marked s'.diskRadius.mask k ↔ hill < R' := by
    rw [hm, less_iff]
    simp [XF.lt]
  have hκ0 : 0 ≤ u * width dy fx := mul_nonneg hu (by linarith)
  rw [abs_le] at n
  refine ⟨s', es, ?_, ?_⟩
  · rintro ⟨q, hq, hlt⟩
    rw [hm']
    have h1 := mul_le_mul_of_nonneg_left (hmax q hq) (show 0 ≤ 1 - 170 * u * width dy fx by linarith)
    linarith [n.1]
  · intro hall
    rw [hm']
    have h1 := hall q₀ hq₀
    rw [er] at h1
    linarith [n.2]

/-- **C121** With double precision, scale factors from 1 on and `dy` up to 100 the relative error is at most 10⁻⁸. -/
theorem C121_double (L : FloatLib ℝ) (u : ℝ) (hL : Accurate L u) (hu : u ≤ 1 / 2 ^ 50) (g : GridParams ℝ)
    (num y x r : ℕ) (hne : g.rf.data ≠ []) (dx dy fy : ℝ) (hgx : g.dx.data[x]? = some (.fin dx))
    (hgy : g.dy.data[y]? = some (.fin dy)) (hl : BuildRounded.layer L g num Shallot.Column.fyValid y x r = .fin fy)
    (h : dy ≠ 0 ∨ dx = 0) (hdy : |dy| ≤ 100) (hy : 1 ≤ fy) (s : Shallot ℝ) (k : ℕ)
    (hk : s.diskRadius.data.data[k]? = some (BuildRounded.layer L g num Shallot.Column.diskRadius y x r))
    (v : PyVal ℝ) (hill : ℝ) (hv : IsNumber false v (.fin hill)) (h0 : 0 ≤ hill) :
    ∃ s' fx, Geometry.determineFx (.fin dy) (.fin fy) = .fin fx ∧ Shallot.hillMask v s = (.ok (), s') ∧
      ((∃ q ∈ curve dx dy fx fy, hill < (1 - 1 / 10 ^ 8) * reach dx dy q) → Marked s'.diskRadius.mask k) ∧
      ((∀ q ∈ curve dx dy fx fy, (1 + 1 / 10 ^ 8) * reach dx dy q ≤ hill) → ¬ Marked s'.diskRadius.mask k) := by
  have hu0 := hL.nonneg
  have hd : 0 < fy ^ 2 * (1 + 4 * dy ^ 2) - 4 * dy ^ 2 := by
    have : 1 ≤ fy ^ 2 := one_le_pow₀ hy
    have := mul_le_mul_of_nonneg_right this (show 0 ≤ 1 + 4 * dy ^ 2 by positivity)
    linarith
  have hfx := determineFx_fin dy fy hd
  set fx := fy / √(fy ^ 2 * (1 + 4 * dy ^ 2) - 4 * dy ^ 2)
  obtain ⟨hx, h1, h2⟩ := width_props (by linarith) hfx
  have h3 := h2 hy
  have h4 : dy ^ 2 ≤ 100 ^ 2 := by rw [← sq_abs]; exact pow_le_pow_left₀ (abs_nonneg dy) hdy 2
  have h5 : width dy fx ≤ 40001 := by linarith
  have h6 : u * width dy fx ≤ 1 / 2 ^ 50 * 40001 := mul_le_mul hu h5 (by linarith) (by positivity)
  have h7 : 170 * u * width dy fx ≤ 1 / 10 ^ 8 := by
    have : (170 : ℝ) * (1 / 2 ^ 50 * 40001) ≤ 1 / 10 ^ 8 := by norm_num
    linarith
  obtain ⟨s', e, m1, m2⟩ := C121_mask L u hL g num y x r hne dx dy fy fx hgx hgy hl h (by linarith) hfx (by
    have : (1000 : ℝ) * (1 / 2 ^ 50 * 40001) ≤ 1 := by norm_num
    linarith) s k hk v hill hv h0
  have hreach : ∀ q, 0 ≤ reach dx dy q := fun q => sqrt_nonneg _
  refine ⟨s', fx, hfx, e, ?_, ?_⟩
  · rintro ⟨q, hq, hlt⟩
    refine m1 ⟨q, hq, hlt.trans_le ?_⟩
    exact mul_le_mul_of_nonneg_right (by linarith) (hreach q)
  · intro hall
    refine m2 fun q hq => le_trans ?_ (hall q hq)
    exact mul_le_mul_of_nonneg_right (by linarith) (hreach q)

/-- **C121** On the path of the star, off the centre of the grid, there are no disks, and the mask marks all of it,
whatever the Hill radius. -/
theorem C121_axis (L : FloatLib ℝ) (g : GridParams ℝ) (num y x r : ℕ) (dx : ℝ) (h : dx ≠ 0)
    (hgx : g.dx.data[x]? = some (.fin dx)) (hgy : g.dy.data[y]? = some (.fin 0)) (s : Shallot ℝ) (k : ℕ)
    (hk : s.diskRadius.data.data[k]? = some (BuildRounded.layer L g num Shallot.Column.diskRadius y x r))
    (v : PyVal ℝ) (hill : ℝ) (hv : IsNumber false v (.fin hill)) (h0 : 0 ≤ hill) :
    ∃ s', Shallot.hillMask v s = (.ok (), s') ∧ Marked s'.diskRadius.mask k := by
  rw [C115_axis L g num y x r dx h hgx hgy] at hk
  obtain ⟨s', e, hm⟩ := hill_marks s k _ hk v hill hv h0
  exact ⟨s', e, hm.2 (Or.inl rfl)⟩

/-- Exact arithmetic makes no errors. -/
theorem exact_accurate : Accurate .exact 0 where
  nonneg := le_rfl
  rnd x := by simp [FloatLib.exact]
  mono _ _ h := h
  one := rfl
  sqrt x _ := by simp [RelNear, FloatLib.exact, RealFns.sqrt]
  sin x := by simp [RelNear, FloatLib.exact, RealFns.sin]
  cos x := by simp [RelNear, FloatLib.exact, RealFns.cos]
  arctan2 y x := by simp [RelNear, FloatLib.exact, RealFns.arctan2]
  arccos x _ _ := by simp [RelNear, FloatLib.exact, RealFns.arccos]
  hypot x y := by simp [RelNear, FloatLib.exact, RealFns.sqrt, sq]
  pi := by simp [RelNear, FloatLib.exact, RealFns.pi]

/-- A disk of a grid that meets the hypotheses of `C121_mask`: that with radius factor 1 at the only point `(1, 1)`
of a grid. -/
example : ∃ fx fy : ℝ, BuildRounded.layer .exact onePoint 100 Shallot.Column.fyValid 0 0 1 = .fin fy ∧ 0 < fy ∧
    Geometry.determineFx (.fin 1) (.fin fy) = .fin fx ∧ onePoint.rf.data ≠ [] ∧
    onePoint.dx.data[0]? = some (.fin 1) ∧ onePoint.dy.data[0]? = some (.fin 1) ∧ Accurate .exact 0 ∧
    1000 * 0 * width 1 fx ≤ 1 := by
  have hpi : (RealFns.pi : ℝ) ≠ 0 := Real.pi_ne_zero
  have hcell : CellAt ⟨.fin 1, Geometry.shear (.fin 1) (.fin 1), Geometry.circularRadius (.fin (1 : ℝ)), .fin 1, .fin 1,
      .fin 2, 100⟩ 1 1 := ⟨rfl, rfl, rfl, Or.inl one_ne_zero, ⟨1, rfl⟩, ⟨1, rfl⟩⟩
  obtain ⟨col, hcol⟩ : ∃ col, Shallot.column ⟨.fin 1, Geometry.shear (.fin 1) (.fin 1),
      Geometry.circularRadius (.fin (1 : ℝ)), .fin 1, .fin 1, .fin 2, 100⟩ [.fin 1, .fin 2] = .ok col := by
    refine C58_column _ 1 1 1 1 2 hcell rfl one_pos rfl
      one_pos (by norm_num) rfl (by norm_num) _ (by simp) 4 (by norm_num) (by norm_num) ?_ 4
      (by norm_num) (by norm_num) ?_ <;>
    · simp [shearOf]; norm_num
  obtain ⟨-, hall, m, -, -, -, hm⟩ := C57_cell _ 1 1 hcell _ (by simp) col hcol
  obtain ⟨x, y, r, i, t, k1, k2, k3, -, -, hlay⟩ := C75_cell _ 1 1 hcell _ (by simp) (by simp) col hcol 1 (by simp)
  have hr : r = .fin m := by
    have : col.diskRadius[1]? = some (.fin m) := hm
    rw [k3] at this
    exact Option.some.inj this
  have hs : Geometry.shear (.fin 1) (.fin (1 : ℝ)) = .fin (-1) := by
    rw [shear_ok 1 1 (Or.inl one_ne_zero)]; simp [shearOf]
  have hc : BuildRounded.cellFor .exact onePoint 100 0 0 =
      ⟨.fin 1, Geometry.shear (.fin 1) (.fin 1), Geometry.circularRadius (.fin (1 : ℝ)), .fin 1, .fin 1, .fin 2, 100⟩ := by
    unfold BuildRounded.cellFor
    rw [shear_exact, circularRadius_exact]
    rfl
  have hl : BuildRounded.layer .exact onePoint 100 Shallot.Column.fyValid 0 0 1 = y := by
    unfold BuildRounded.layer
    rw [hc, column_exact hpi, hs]
    rw [hs] at hcol
    have : onePoint.rf.data = [.fin 1, .fin 2] := rfl
    rw [this, hcol]
    simp only [XF.isNan_fin, Bool.false_eq_true, if_false, List.getD_eq_getElem?_getD, k2, Option.getD_some]
  rcases hlay with ⟨hn, -⟩ | ⟨fx, fy, a, b, c, rfl, rfl, -, -, -, -, h2, -⟩
  · rw [hr] at hn
    cases hn
  · obtain ⟨x', -, -, -, g1, g2, -⟩ := hall 1 _ k2
    rw [k1] at g1
    rw [← Option.some.inj g1] at g2
    exact ⟨fx, fy, hl, h2, g2.symm, by simp [onePoint], rfl, rfl, exact_accurate, by norm_num⟩

end Beyonce
