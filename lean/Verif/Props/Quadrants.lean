import Verif.BuildGrid
import Verif.CubeLemmas
import Verif.Props.GridProperty
import Verif.Props.GridParameters
import Verif.Props.Viewer
import Verif.Props.Geometry

/-!
# C56: the four quadrants
-/

set_option linter.unusedSectionVars false

namespace Beyonce
open Spec

section
variable {K : Type} [Field K] [LinearOrder K] [IsStrictOrderedRing K]

/-- Mirroring about the middle row or column: `centre + i` or `centre - i`. -/
def Spec.side (positive : Bool) (centre i : ℕ) : ℕ := if positive then centre + i else centre - i

/-- The value that the quadrant of centre `(±dx, ±dy)` should hold for a first-quadrant value: the
same, but an angle `t` becomes `180 - t` if exactly one of the two signs is negative. -/
def Spec.mirrored (angle up right : Bool) (v : XF K) : XF K :=
  if angle ∧ up ≠ right then (XF.fin 180).sub v else v

variable [RealFns K]

theorem quadrants_cubic (ny nx nr : ℕ) (d : Nd K) (t : Bool) :
    (Shallot.quadrants ny nx nr d t).Cubic (2 * ny - 1) (2 * nx - 1) nr := cubic_cubeOf _ _ _ _

theorem quadrants_at (ny nx nr : ℕ) (d : Nd K) (t : Bool) {y x r : ℕ} (hy : y < 2 * ny - 1)
    (hx : x < 2 * nx - 1) (hr : r < nr) :
    (Shallot.quadrants ny nx nr d t).at3 y x r =
      if y < ny then
        if x < nx then d.at3 (ny - 1 - y) (nx - 1 - x) r
        else Shallot.flipTilt t (d.at3 (ny - 1 - y) (x + 1 - nx) r)
      else
        if x < nx then Shallot.flipTilt t (d.at3 (y + 1 - ny) (nx - 1 - x) r)
        else d.at3 (y + 1 - ny) (x + 1 - nx) r := by
  unfold Shallot.quadrants deleteColumn
  simp only
  rw [at3_cubeOf _ _ _ _ hy hx hr]
  unfold deleteRow
  rw [at3_cubeOf _ _ _ _ hy (by split_ifs <;> omega) hr]
  rw [at3_cubeOf _ _ _ _ (by split_ifs <;> omega) (by split_ifs <;> omega) hr]
  by_cases h1 : y < ny
  · rw [if_pos h1, if_neg (by omega : ¬ ny ≤ y), if_pos h1]
    by_cases h2 : x < nx
    · rw [if_pos h2, if_pos h2, if_pos h2]
      unfold flipud fliplr
      rw [at3_cubeOf _ _ _ _ h1 h2 hr, at3_cubeOf _ _ _ _ (by omega) h2 hr]
    · rw [if_neg h2, if_neg (by omega : ¬ x + 1 < nx), if_neg h2]
      unfold flipud
      rw [at3_cubeOf _ _ _ _ h1 (by omega) hr]
  · rw [if_neg h1, if_pos (by omega : ny ≤ y + 1), if_neg h1]
    by_cases h2 : x < nx
    · rw [if_pos h2, if_neg (by omega : ¬ nx ≤ x), if_pos h2]
      unfold fliplr
      rw [at3_cubeOf _ _ _ _ (by omega) h2 hr]
    · rw [if_neg h2, if_pos (by omega : nx ≤ x + 1), if_neg h2]

theorem recolor_eq (name : String) (p : GProp K) : Shallot.recolor name p = (.ok (), { p with
    vmin := nanmin p.data.data, vmax := nanmax p.data.data, colorMap := name, numColors := 11 }) :=
  setContrast_color (.str name) name (by simp [string, classObject, isinstance, bind, Except.bind]) p

theorem fillQuadrants_ok (g : GridParams K) (p q : GProp K) (angle : Bool) (ny nx nr : ℕ)
    (hs : p.data.shape = [ny, nx, nr]) : Shallot.fillQuadrants g p angle = .ok q ↔
      g.gridShape = (2 * ny - 1, 2 * nx - 1, nr) ∧
      q = ⟨p.name, p.unit, g, Shallot.quadrants ny nx nr p.data angle, none,
        nanmin (Shallot.quadrants ny nx nr p.data angle).data,
        nanmax (Shallot.quadrants ny nx nr p.data angle).data,
        if angle then "twilight" else "viridis", 11⟩ := by
  unfold Shallot.fillQuadrants
  rw [hs]
  simp only
  by_cases h : g.gridShape = (2 * ny - 1, 2 * nx - 1, nr)
  · have hnew := (prop_new_ok_iff p.name p.unit
      (.arr ⟨"float64", (Shallot.quadrants ny nx nr p.data angle).shape,
        (Shallot.quadrants ny nx nr p.data angle).data⟩) g _).2
      ⟨_, rfl, rfl, by rw [h]; exact (quadrants_cubic ny nx nr p.data angle).1, rfl⟩
    rw [if_pos h, hnew, ok_bind]
    cases angle with
    | false =>
      simp only [Bool.false_eq_true, if_false, Except.ok.injEq]
      exact ⟨fun e => ⟨h, e.symm⟩, fun e => e.2.symm⟩
    | true =>
      simp only [if_true]
      rw [recolor_eq]
      simp only [Except.ok.injEq]
      exact ⟨fun e => ⟨h, e.symm⟩, fun e => e.2.symm⟩
  · rw [if_neg h]
    exact ⟨(fun e => by cases e), (fun e => absurd e.1 h)⟩

/-- **C56** for one property of any size: `_fill_quadrants` succeeds exactly if the grid has the
mirrored shape, and every cell `(±i, ±j)` around the centre then holds the value of the first
quadrant, mirrored.  (The row and the column through the centre, where two quadrants meet, are those
of the negative side.) -/
theorem C56_mirror (g : GridParams K) (p : GProp K) (angle : Bool) (ny nx nr : ℕ)
    (hs : p.data.shape = [ny, nx, nr]) :
    ((∃ q, Shallot.fillQuadrants g p angle = .ok q) ↔ g.gridShape = (2 * ny - 1, 2 * nx - 1, nr)) ∧
    ∀ q, Shallot.fillQuadrants g p angle = .ok q →
      q.data.Cubic (2 * ny - 1) (2 * nx - 1) nr ∧ q.name = p.name ∧ q.unit = p.unit ∧
      q.params = g ∧ q.mask = none ∧
      ∀ i j k, i < ny → j < nx → k < nr → ∀ up right : Bool,
        q.data.at3 (side up (ny - 1) i) (side right (nx - 1) j) k =
          mirrored angle (up && decide (0 < i)) (right && decide (0 < j)) (p.data.at3 i j k) := by
  constructor
  · constructor
    · rintro ⟨q, h⟩
      exact ((fillQuadrants_ok g p q angle ny nx nr hs).1 h).1
    · intro h
      exact ⟨_, (fillQuadrants_ok g p _ angle ny nx nr hs).2 ⟨h, rfl⟩⟩
  · intro q hq
    obtain ⟨-, rfl⟩ := (fillQuadrants_ok g p q angle ny nx nr hs).1 hq
    refine ⟨quadrants_cubic _ _ _ _ _, rfl, rfl, rfl, rfl, ?_⟩
    intro i j k hi hj hk up right
    have hy : side up (ny - 1) i < 2 * ny - 1 := by unfold side; split_ifs <;> omega
    have hx : side right (nx - 1) j < 2 * nx - 1 := by unfold side; split_ifs <;> omega
    simp only
    rw [quadrants_at ny nx nr p.data angle hy hx hk]
    have hrow : (side up (ny - 1) i < ny ↔ (up && decide (0 < i)) = false) ∧
        (side up (ny - 1) i < ny → ny - 1 - side up (ny - 1) i = i) ∧
        (¬ side up (ny - 1) i < ny → side up (ny - 1) i + 1 - ny = i) := by
      unfold side; cases up <;> simp <;> omega
    have hcol : (side right (nx - 1) j < nx ↔ (right && decide (0 < j)) = false) ∧
        (side right (nx - 1) j < nx → nx - 1 - side right (nx - 1) j = j) ∧
        (¬ side right (nx - 1) j < nx → side right (nx - 1) j + 1 - nx = j) := by
      unfold side; cases right <;> simp <;> omega
    generalize side up (ny - 1) i = y at *
    generalize side right (nx - 1) j = x at *
    generalize (up && decide (0 < i)) = u at *
    generalize (right && decide (0 < j)) = r at *
    unfold mirrored Shallot.flipTilt
    by_cases h1 : y < ny
    · rw [if_pos h1, hrow.2.1 h1, hrow.1.1 h1]
      by_cases h2 : x < nx
      · rw [if_pos h2, hcol.2.1 h2, hcol.1.1 h2]; simp
      · rw [if_neg h2, hcol.2.2 h2, eq_true_of_ne_false fun h => h2 (hcol.1.2 h)]
        cases angle <;> simp
    · rw [if_neg h1, hrow.2.2 h1, eq_true_of_ne_false fun h => h1 (hrow.1.2 h)]
      by_cases h2 : x < nx
      · rw [if_pos h2, hcol.2.1 h2, hcol.1.1 h2]
        cases angle <;> simp
      · rw [if_neg h2, hcol.2.2 h2, eq_true_of_ne_false fun h => h2 (hcol.1.2 h)]
        simp

/-- `q` is the property `p` of a first quadrant mirrored into all four. -/
structure Spec.MirrorOf (angle : Bool) (ny nx nr : ℕ) (p q : GProp K) : Prop where
  name : q.name = p.name
  unit : q.unit = p.unit
  cubic : q.data.Cubic (2 * ny - 1) (2 * nx - 1) nr
  mask : q.mask = none
  limits : q.vmin = nanmin q.data.data ∧ q.vmax = nanmax q.data.data
  values : ∀ i j k, i < ny → j < nx → k < nr → ∀ up right : Bool,
    q.data.at3 (side up (ny - 1) i) (side right (nx - 1) j) k =
      mirrored angle (up && decide (0 < i)) (right && decide (0 < j)) (p.data.at3 i j k)

/-- The five properties have the shape of the grid. -/
def Spec.Filled (s : Shallot K) (ny nx nr : ℕ) : Prop :=
  s.diskRadius.data.Cubic ny nx nr ∧ s.inclination.data.Cubic ny nx nr ∧
  s.tilt.data.Cubic ny nx nr ∧ s.fxMap.data.Cubic ny nx nr ∧ s.fyMap.data.Cubic ny nx nr

theorem fill_mirror (g : GridParams K) (p : GProp K) (angle : Bool) (ny nx nr : ℕ)
    (hs : p.data.Cubic ny nx nr) (hg : g.gridShape = (2 * ny - 1, 2 * nx - 1, nr)) :
    ∃ q, Shallot.fillQuadrants g p angle = .ok q ∧ MirrorOf angle ny nx nr p q ∧ q.params = g := by
  obtain ⟨q, hq⟩ := (C56_mirror g p angle ny nx nr hs.1).1.2 hg
  obtain ⟨a, b, c, d, e, f⟩ := (C56_mirror g p angle ny nx nr hs.1).2 q hq
  obtain ⟨-, hq'⟩ := (fillQuadrants_ok g p q angle ny nx nr hs.1).1 hq
  exact ⟨q, hq, ⟨b, c, a, e, by rw [hq']; exact ⟨rfl, rfl⟩, f⟩, d⟩

/-- **C56** `_extend_grid` of a grid whose parameters start at the origin mirrors the coordinates and
all five properties: the element at `(side up i, side right j)` belongs to the centre
`(±dx[j], ±dy[i])` and holds the value of the first quadrant, mirrored. -/
theorem C56_extend (minX maxX numX minY maxY numY maxRf numRf : PyVal K) (s : Shallot K)
    (hg : GridParams.new minX maxX numX minY maxY numY maxRf numRf = .ok s.params)
    (hext : s.params.extendable = true) (hy : 2 ≤ s.params.sliceShape.1)
    (hx : 2 ≤ s.params.sliceShape.2) (ny nx nr : ℕ) (hny : s.params.sliceShape = (ny, nx))
    (hnr : s.params.gridShape.2.2 = nr) (hf : Filled s ny nx nr) :
    ∃ s', Shallot.extendGrid s = (.ok (), s') ∧
      Mirrored s.params.dx.data s'.params.dx.data nx ∧
      Mirrored s.params.dy.data s'.params.dy.data ny ∧ s'.params.rfArray = s.params.rfArray ∧
      s'.params.gridShape = (2 * ny - 1, 2 * nx - 1, nr) ∧
      MirrorOf false ny nx nr s.diskRadius s'.diskRadius ∧
      MirrorOf false ny nx nr s.inclination s'.inclination ∧
      MirrorOf true ny nx nr s.tilt s'.tilt ∧
      MirrorOf false ny nx nr s.fxMap s'.fxMap ∧ MirrorOf false ny nx nr s.fyMap s'.fyMap ∧
      Filled s' (2 * ny - 1) (2 * nx - 1) nr ∧
      s'.circularRadius = s'.params.dy.data.map Geometry.circularRadius ∧
      s'.shear.Cubic (2 * ny - 1) (2 * nx - 1) 1 ∧
      (∀ i j, i < 2 * ny - 1 → j < 2 * nx - 1 → s'.shear.at3 i j 0 =
        Geometry.shear (s'.params.dx.data.getD j .nan) (s'.params.dy.data.getD i .nan)) ∧
      (s'.params.rf = s.params.rf ∧ s'.params.sliceShape = (2 * ny - 1, 2 * nx - 1) ∧
        s'.params.extendable = false) ∧
      (s'.numFxfy = s.numFxfy ∧ s'.diagnostics = s.diagnostics.map Diagnostics.extend ∧
        s'.diagnosticMap = s.diagnosticMap ∧ s'.gradients = s.gradients ∧
        s'.gradientFit = s.gradientFit ∧ s'.eclipseDuration = s.eclipseDuration ∧
        s'.velocity = s.velocity ∧ s'.limb = s.limb) := by
  obtain ⟨g', he, mx, my, hrf0, hrf, hgs, hss, -, -, hex, -⟩ :=
    C23_extend_mirrors _ _ _ _ _ _ _ _ s.params hg hext hy hx
  rw [hny] at mx my hgs hss
  rw [hnr] at hgs
  simp only at mx my hgs hss
  obtain ⟨h1, h2, h3, h4, h5⟩ := hf
  obtain ⟨a, ha, ma, -⟩ := fill_mirror g' _ false ny nx nr h1 hgs
  obtain ⟨b, hb, mb, -⟩ := fill_mirror g' _ false ny nx nr h2 hgs
  obtain ⟨c, hc, mc, -⟩ := fill_mirror g' _ true ny nx nr h3 hgs
  obtain ⟨d, hd, md, -⟩ := fill_mirror g' _ false ny nx nr h4 hgs
  obtain ⟨e, he', me, -⟩ := fill_mirror g' _ false ny nx nr h5 hgs
  refine ⟨{ Shallot.helpers { s with params := g' } with
      diskRadius := a
      inclination := b
      tilt := c
      fxMap := d
      fyMap := e
      diagnostics := s.diagnostics.map Diagnostics.extend }, ?_, mx, my, hrf, hgs, ma, mb, mc, md,
    me, ⟨ma.cubic, mb.cubic, mc.cubic, md.cubic, me.cubic⟩, rfl, ?_, ?_, ⟨hrf0, hss, hex⟩, rfl, rfl, rfl, rfl, rfl,
    rfl, rfl, rfl⟩
  · unfold Shallot.extendGrid
    rw [he]
    simp only
    rw [Meth.bind_apply]
    have hfill : Shallot.fillAll (Shallot.helpers { s with params := g' }) = (.ok (),
        { Shallot.helpers { s with params := g' } with
          diskRadius := a
          inclination := b
          tilt := c
          fxMap := d
          fyMap := e }) := by
      unfold Shallot.fillAll
      simp only [Meth.get_bind]
      rw [show (Shallot.helpers { s with params := g' }).params = g' from rfl,
        show (Shallot.helpers { s with params := g' }).diskRadius = s.diskRadius from rfl,
        show (Shallot.helpers { s with params := g' }).inclination = s.inclination from rfl,
        show (Shallot.helpers { s with params := g' }).tilt = s.tilt from rfl,
        show (Shallot.helpers { s with params := g' }).fxMap = s.fxMap from rfl,
        show (Shallot.helpers { s with params := g' }).fyMap = s.fyMap from rfl,
        ha, Meth.lift_ok_bind, Meth.modify_bind, hb, Meth.lift_ok_bind, Meth.modify_bind, hc,
        Meth.lift_ok_bind, Meth.modify_bind, hd, Meth.lift_ok_bind, Meth.modify_bind, he',
        Meth.lift_ok_bind, Meth.modify_apply]
      rfl
    rw [hfill]
    rfl
  · unfold Shallot.helpers
    simp only
    rw [hss]
    exact cubic_cubeOf _ _ _ _
  · intro i j hi hj
    unfold Shallot.helpers
    simp only
    rw [hss, at3_cubeOf _ _ _ _ hi hj (by omega)]

/-- Extending a grid that does not start at the origin changes nothing. -/
theorem C56_not_extended (s : Shallot K) (h : s.params.extendable = false) :
    Shallot.extendGrid s = (.ok (), s) := by
  unfold Shallot.extendGrid
  rw [extendGrid_not _ h]

end

/-- Without shear the computed tilt is a multiple of 90 degrees. -/
theorem tiltRad_zero (fx fy R : ℝ) (hx : 0 < fx) (hy : 0 < fy) (hR : 0 < R) :
    tiltRad fx fy 0 R = 0 ∨ tiltRad fx fy 0 R = Real.pi / 2 ∨ tiltRad fx fy 0 R = Real.pi := by
  have harg : ∀ x : ℝ, 0 ≤ x → Complex.arg ⟨x, 0⟩ = 0 := fun x h => Complex.arg_ofReal_of_nonneg h
  have hup : ∀ y : ℝ, 0 < y → Complex.arg ⟨0, y⟩ = Real.pi / 2 := by
    intro y h
    rw [Complex.arg_eq_pi_div_two_iff]
    exact ⟨rfl, h⟩
  rcases le_or_gt (fx * fx) (fy * fy) with h | h
  · have hv : vertex fx fy 0 = 0 := by
      unfold vertex
      rw [show 2 * fx * fy * (0 : ℝ) = 0 by ring, harg _ (by linarith), zero_div]
    have h0 : sheared fx fy 0 R 0 = (fx * R, 0) := by unfold sheared; simp
    unfold tiltRad
    simp only
    rw [hv, h0, harg _ (by positivity)]
    by_cases hc : norm2 (fx * R, 0) < norm2 (sheared fx fy 0 R (0 + Real.pi / 2))
    · rw [if_pos hc]; right; left; ring
    · rw [if_neg hc]; left; ring
  · have hv : vertex fx fy 0 = Real.pi / 2 := by
      unfold vertex
      rw [show 2 * fx * fy * (0 : ℝ) = 0 by ring]
      have := Complex.arg_ofReal_of_neg (x := (0 * 0 + 1) * (fy * fy) - fx * fx) (by linarith)
      rw [show (⟨(0 * 0 + 1) * (fy * fy) - fx * fx, 0⟩ : ℂ) =
        (((0 * 0 + 1) * (fy * fy) - fx * fx : ℝ) : ℂ) from rfl, this]
    have h0 : sheared fx fy 0 R (Real.pi / 2) = (0, fy * R) := by unfold sheared; simp
    unfold tiltRad
    simp only
    rw [hv, h0, hup _ (by positivity)]
    by_cases hc : norm2 (0, fy * R) < norm2 (sheared fx fy 0 R (Real.pi / 2 + Real.pi / 2))
    · rw [if_pos hc]; right; right; ring
    · rw [if_neg hc]; right; left; ring

/-- **C56** On the column of centres with `dx = 0`, which two quadrants share, the tilt is 0, 90 or
180 degrees, so that `180 - t` (which the upper half of the column gets) is the same direction. -/
theorem C56_axis (dy fy : ℝ) (hdy : dy ≠ 0) (hy : 0 < fy)
    (hn : Geometry.determineFx (.fin dy) (.fin fy) ≠ .nan) :
    ∃ a i t : ℝ, diskAt 0 dy fy = (.fin a, .fin i, .fin t) ∧ (t = 0 ∨ t = 90 ∨ t = 180) := by
  have hd : 0 < fy ^ 2 * (1 + 4 * dy ^ 2) - 4 * dy ^ 2 := by
    by_contra hle
    exact hn ((C54_fx dy fy hy).1.2 (by linarith))
  have hfx := determineFx_fin dy fy hd
  have hx : 0 < fy / √(fy ^ 2 * (1 + 4 * dy ^ 2) - 4 * dy ^ 2) :=
    div_pos hy (Real.sqrt_pos.2 hd)
  have hR : 0 < √(1 / 4 + dy ^ 2) := Real.sqrt_pos.2 (by positivity)
  have hpi := Real.pi_pos
  have hdisk := diskParameters_fin _ fy 0 _ hx hy hR
  have hat : diskAt 0 dy fy = Geometry.diskParameters
      (.fin (fy / √(fy ^ 2 * (1 + 4 * dy ^ 2) - 4 * dy ^ 2))) (.fin fy) (.fin 0)
      (.fin √(1 / 4 + dy ^ 2)) := by
    unfold diskAt
    rw [hfx, shear_fin _ _ hdy, circularRadius_fin, neg_zero, zero_div]
  refine ⟨_, _, _, hat.trans hdisk, ?_⟩
  · rcases tiltRad_zero _ fy _ hx hy hR with h | h | h <;> rw [h]
    · left; ring
    · right; left; field_simp; norm_num
    · right; right; field_simp

/-! ## The hypotheses can be met -/

/-- The first quadrant of `GridParameters(0, 1, 2, 0, 1, 2, 2, 1)` with disk radii 1 to 4. -/
example : ∃ (g : GridParams ℚ) (d : Nd ℚ),
    GridParams.new (.int 0) (.int 1) (.int 2) (.int 0) (.int 1) (.int 2) (.int 2) (.int 1) = .ok g ∧
    g.extendable = true ∧ g.sliceShape = (2, 2) ∧ g.gridShape.2.2 = 1 ∧
    d = ⟨[2, 2, 1], [.fin 1, .fin 2, .fin 3, .fin 4]⟩ ∧ d.Cubic 2 2 1 := by
  refine ⟨gridOf (.fin 0) (.fin 1) 2 (.fin 0) (.fin 1) 2 (.fin 2) 1, _, by decide +kernel,
    by decide +kernel, by decide +kernel, by decide +kernel, rfl, ?_⟩
  unfold Nd.Cubic
  decide +kernel

end Beyonce
