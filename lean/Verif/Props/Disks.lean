import Verif.Props.Complete

/-!
# C75: every disk of a grid spans the eclipse
-/

set_option linter.unusedSectionVars false

namespace Beyonce
open Spec Geometry Real

/-- The ellipse around `(dx, dy)` with semi-major axis `a` that belongs to a circle inclined by `i`
degrees, its major axis at `t` degrees, passes through both end points `(±1/2, 0)` of the eclipse. -/
def Spec.Spans (dx dy a i t : ℝ) : Prop :=
  ∀ e : ℝ, (e = 1 / 2 ∨ e = -1 / 2) → ∃ φ, (e, (0 : ℝ)) =
    (dx + (tilted a (a * cos (rad i)) (rad t) φ).1, dy + (tilted a (a * cos (rad i)) (rad t) φ).2)

theorem rad_supplement (t : ℝ) : rad (180 - t) = π - rad t := by
  unfold rad
  ring

theorem spans_left {dx dy a i t : ℝ} (h : Spans dx dy a i t) : Spans (-dx) dy a i (180 - t) := by
  intro e he
  obtain ⟨φ, hφ⟩ := h (-e) (by rcases he with rfl | rfl <;> norm_num)
  simp only [Prod.mk.injEq, tilted] at hφ
  refine ⟨-φ, ?_⟩
  simp only [Prod.mk.injEq, tilted, rad_supplement, cos_neg, sin_neg, cos_pi_sub, sin_pi_sub]
  constructor <;> linarith [hφ.1, hφ.2]

theorem spans_down {dx dy a i t : ℝ} (h : Spans dx dy a i t) : Spans dx (-dy) a i (180 - t) := by
  intro e he
  obtain ⟨φ, hφ⟩ := h e he
  simp only [Prod.mk.injEq, tilted] at hφ
  refine ⟨π - φ, ?_⟩
  simp only [Prod.mk.injEq, tilted, rad_supplement, cos_pi_sub, sin_pi_sub]
  constructor <;> linarith [hφ.1, hφ.2]

/-- The ellipse of the disk (semi-major axis `a`, inclination `i` and tilt `t` in degrees) is that of
the scale factors `fx` and `fy` at `(dx, dy)`: the circle through the end points of the eclipse around
`(0, dy)`, stretched, and sheared so that its centre comes to `(dx, dy)`. -/
def Spec.DiskOf (dx dy fx fy a i t : ℝ) : Prop :=
  Set.range (sheared fx fy (shearOf dx dy) √(1 / 4 + dy ^ 2)) =
    Set.range (tilted a (a * cos (rad i)) (rad t))

theorem range_flip {u v u' v' : ℝ → ℝ × ℝ} {f : ℝ × ℝ → ℝ × ℝ} {p q : ℝ → ℝ}
    (hp : Function.Surjective p) (hq : Function.Surjective q) (hu : ∀ θ, f (u (p θ)) = u' θ)
    (hv : ∀ θ, f (v (q θ)) = v' θ)
    (h : Set.range u = Set.range v) : Set.range u' = Set.range v' := by
  have e1 : u' = f ∘ u ∘ p := by funext θ; exact (hu θ).symm
  have e2 : v' = f ∘ v ∘ q := by funext θ; exact (hv θ).symm
  rw [e1, e2, Set.range_comp, Set.range_comp f, hp.range_comp, hq.range_comp, h]

theorem shearOf_left (dx dy : ℝ) : shearOf (-dx) dy = -shearOf dx dy := by
  unfold shearOf
  split_ifs
  · simp
  · ring

theorem shearOf_down (dx dy : ℝ) : shearOf dx (-dy) = -shearOf dx dy := by
  unfold shearOf
  simp only [neg_eq_zero]
  split_ifs
  · simp
  · rw [div_neg]

theorem surjective_neg : Function.Surjective (fun θ : ℝ => -θ) := fun θ => ⟨-θ, neg_neg θ⟩

theorem surjective_pi_sub : Function.Surjective (fun θ : ℝ => π - θ) :=
  fun θ => ⟨π - θ, sub_sub_cancel π θ⟩

theorem diskOf_left {dx dy fx fy a i t : ℝ} (h : DiskOf dx dy fx fy a i t) :
    DiskOf (-dx) dy fx fy a i (180 - t) := by
  unfold DiskOf at *
  rw [shearOf_left, rad_supplement]
  refine range_flip (f := fun p => (-p.1, p.2)) surjective_pi_sub surjective_neg ?_ ?_ h
  · intro θ
    simp only [sheared, cos_pi_sub, sin_pi_sub, Prod.mk.injEq, and_true]
    ring
  · intro θ
    simp only [tilted, cos_pi_sub, sin_pi_sub, cos_neg, sin_neg, Prod.mk.injEq]
    constructor <;> ring

theorem diskOf_down {dx dy fx fy a i t : ℝ} (h : DiskOf dx dy fx fy a i t) :
    DiskOf dx (-dy) fx fy a i (180 - t) := by
  unfold DiskOf at *
  rw [shearOf_down, rad_supplement, neg_sq]
  refine range_flip (f := fun p => (p.1, -p.2)) surjective_neg surjective_pi_sub ?_ ?_ h
  · intro θ
    simp only [sheared, cos_neg, sin_neg, Prod.mk.injEq]
    constructor <;> ring
  · intro θ
    simp only [tilted, cos_pi_sub, sin_pi_sub, Prod.mk.injEq]
    constructor <;> ring

/-- A disk with an unknown scale factor has no parameters at all. -/
theorem diskParameters_all_nan (fx fy s R : XF ℝ) (h : fx = .nan ∨ fy = .nan) :
    diskParameters fx fy s R = (.nan, .nan, .nan) := by
  have hm : ∀ a : XF ℝ, a.mul .nan = .nan := by intro a; cases a <;> rfl
  have hm' : ∀ a : XF ℝ, XF.mul .nan a = .nan := by intro a; cases a <;> rfl
  have hv : Geometry.vertexAngles fx fy s = (.nan, .nan) := by
    unfold Geometry.vertexAngles
    rcases h with rfl | rfl
    · simp only [hm, hm']
      cases ((s.sq.add (.fin 1)).mul fy.sq).sub (XF.nan : XF ℝ).sq <;> simp [XF.arctan2, hm] <;>
        cases XF.pi.div (.fin (2 : ℝ)) <;> rfl
    · simp only [hm, hm']
      cases ((s.sq.add (.fin 1)).mul (XF.nan : XF ℝ).sq).sub fx.sq <;> simp [XF.arctan2, hm] <;>
        cases XF.pi.div (.fin (2 : ℝ)) <;> rfl
  have hxy : Geometry.xyAt fx fy .nan s R = (.nan, .nan) := by
    unfold Geometry.xyAt
    simp only [XF.cos, XF.sin, hm]
    rfl
  unfold Geometry.diskParameters
  rw [hv]
  simp only [hxy]
  rfl

/-- What one layer of a cell holds: nothing, or scale factors and the disk they give. -/
def Spec.LayerOf (dx dy : ℝ) (x y r i t : XF ℝ) : Prop :=
  (r = .nan ∧ i = .nan ∧ t = .nan ∧ (x = .nan ∨ y = .nan)) ∨
  ∃ fx fy a b c : ℝ, x = .fin fx ∧ y = .fin fy ∧ r = .fin a ∧ i = .fin b ∧ t = .fin c ∧
    0 < fx ∧ 0 < fy ∧ Eclipse dy fx fy ∧ 0 < a ∧ 0 ≤ b ∧ b < 90 ∧ Spans dx dy a b c ∧ 0 ≤ c ∧ c ≤ 180 ∧
    (dy ≠ 0 ∨ dx = 0) ∧ DiskOf dx dy fx fy a b c

/-- The tilt of a disk is an angle from 0 to 180 degrees. -/
theorem tilt_range (fx fy s R a i t : ℝ) (hx : 0 < fx) (hy : 0 < fy) (hR : 0 < R)
    (h : diskParameters (.fin fx) (.fin fy) (.fin s) (.fin R) = (.fin a, .fin i, .fin t)) :
    0 ≤ t ∧ t ≤ 180 := by
  rcases lt_trichotomy s 0 with hs | rfl | hs
  · obtain ⟨a', i', t', t0, t1, h1, -⟩ := diskParameters_neg fx fy s R hx hy hR hs
    rw [h] at h1
    cases h1
    constructor <;> linarith
  · rw [diskParameters_fin fx fy 0 R hx hy hR] at h
    simp only [Prod.mk.injEq, XF.fin.injEq] at h
    obtain ⟨-, -, rfl⟩ := h
    have hpi := pi_pos
    rcases tiltRad_zero fx fy R hx hy hR with h | h | h <;> rw [h]
    · simp
    · have : π / 2 * (180 / π) = 90 := by field_simp; norm_num
      rw [this]; norm_num
    · have : π * (180 / π) = 180 := by field_simp
      rw [this]; norm_num
  · obtain ⟨a', i', t', t0, t1, -, h1⟩ := diskParameters_neg fx fy (-s) R hx hy hR (by linarith)
    rw [neg_neg, h] at h1
    cases h1
    constructor <;> linarith

theorem layer_of (c : Shallot.Cell ℝ) (dx dy : ℝ) (hc : CellAt c dx dy) (y : XF ℝ)
    (hy : y = .nan ∨ ∃ f : ℝ, 0 ≤ f ∧ y = .fin f) (r i t : XF ℝ)
    (h : diskParameters (determineFx c.dy y) y c.shear c.radius = (r, i, t)) :
    LayerOf dx dy (determineFx c.dy y) y r i t := by
  by_cases hn : determineFx c.dy y = .nan ∨ y = .nan
  · rw [diskParameters_all_nan _ _ _ _ hn] at h
    cases h
    exact Or.inl ⟨rfl, rfl, rfl, hn⟩
  right
  push Not at hn
  obtain ⟨h1, h2⟩ := hn
  obtain ⟨f, hf, rfl⟩ := hy.resolve_left h2
  rw [hc.dy_eq] at h1 h ⊢
  have hf0 : 0 < f := by
    rcases hf.eq_or_lt with rfl | h0
    · exfalso
      apply h1
      unfold determineFx
      simp only [XF.sq_fin, XF.mul_fin, XF.add_fin, XF.sub_fin, XF.le_fin]
      rw [if_pos (by rw [decide_eq_true_eq]; nlinarith [mul_self_nonneg dy])]
      rfl
    · exact h0
  obtain ⟨fx, a, b, t', e1, e2, e3⟩ := C53_reported_disk dx dy f hc.place hf0 h1
  have hfx : 0 < fx := by
    rcases fx_pos dy f hf0 with h | ⟨g, hg, hg'⟩
    · exact absurd h h1
    · rw [e1] at hg'
      cases hg'
      exact hg
  rw [hc.shear_eq, hc.radius_eq, e2] at h
  cases h
  rw [e1, shear_ok dx dy hc.place, circularRadius_fin] at e2
  obtain ⟨a', b', t'', k1, -, -, k2, k3, k4⟩ := C52_axes fx f (shearOf dx dy) _ hfx hf0
    (sqrt_pos.2 (by positivity : (0 : ℝ) < 1 / 4 + dy ^ 2))
  rw [e2] at k1
  cases k1
  obtain ⟨t0, t1⟩ := tilt_range fx f _ _ a b t' hfx hf0
    (sqrt_pos.2 (by positivity : (0 : ℝ) < 1 / 4 + dy ^ 2)) e2
  obtain ⟨a2, b2, t2, k5, k6⟩ := C53_same_ellipse fx f (shearOf dx dy) _ hfx hf0
    (sqrt_pos.2 (by positivity : (0 : ℝ) < 1 / 4 + dy ^ 2))
  rw [e2] at k5
  cases k5
  exact ⟨fx, f, a, b, t', e1, rfl, rfl, rfl, rfl, hfx, hf0, ((C54_fx dy f hf0).2.2 fx hfx).1 e1, k2, k3, k4, e3,
    t0, t1, hc.place, k6⟩

/-- The scale factors along `y` of a cell are NaN or not negative. -/
theorem column_fy (c : Shallot.Cell ℝ) (dx dy : ℝ) (hc : CellAt c dx dy) (rf : List (XF ℝ))
    (hne : rf ≠ []) (hrf : ∀ x ∈ rf, ∃ k, x = .fin k) (col : Shallot.Column ℝ)
    (h : Shallot.column c rf = .ok col) (y : XF ℝ) (hy : y ∈ col.fyValid) :
    y = .nan ∨ ∃ f : ℝ, 0 ≤ f ∧ y = .fin f := by
  obtain ⟨mx, hx⟩ := hc.maxX
  obtain ⟨my, hmy'⟩ := hc.maxY
  obtain ⟨k, l, hk, hmx, hmy, fx, fy, e1, e2, hi, e3⟩ := column_samples c rf col mx my hx hmy' h
  have hok : ∀ p ∈ samplesH c k ++ samplesV c l, SampleOk c √(1 / 4 + dy ^ 2) p ∧
      (p.2 = .nan ∨ ∃ f : ℝ, 0 ≤ f ∧ p.2 = .fin f) := by
    intro p hp
    rcases List.mem_append.1 hp with hp | hp
    · obtain ⟨f, hf, rfl⟩ := samplesH_mem c mx hx hmx k p hp
      refine ⟨sampleH_ok c dx dy f hc hf, ?_⟩
      rw [hc.dy_eq]
      simp only
      by_cases hd : dy = 0
      · subst hd
        obtain ⟨-, o2, o3, o4, -⟩ := C54_origin f hf
        rcases lt_trichotomy f 1 with hlt | rfl | hgt
        · exact Or.inl (o4 hlt)
        · exact Or.inr ⟨1, zero_le_one, o2⟩
        · exact Or.inr ⟨0, le_rfl, o3 hgt⟩
      · rcases fy_pos dy f hd hf with hn | ⟨g, hg, hgf⟩
        · exact Or.inl hn
        · exact Or.inr ⟨g, hg.le, hgf⟩
    · obtain ⟨f, hf, rfl⟩ := samplesV_mem c my hmy' hmy l p hp
      exact ⟨sampleV_ok c dx dy f hc hf, Or.inr ⟨f, hf.le, rfl⟩⟩
  have hfy : ∀ x ∈ col.fy, x = .nan ∨ ∃ f : ℝ, 0 ≤ f ∧ x = .fin f := by
    intro x hx
    rw [e1] at hx
    obtain ⟨p, hp, rfl⟩ := List.mem_map.1 hx
    exact (hok p hp).2
  have hr : ∀ x ∈ col.radius, x = .nan ∨ ∃ r : ℝ, 0 < r ∧ x = .fin r := by
    intro x hx
    rw [e2] at hx
    obtain ⟨p, hp, rfl⟩ := List.mem_map.1 hx
    rcases (hok p hp).1.2 with hn | ⟨r, h0, he, -⟩
    · exact Or.inl hn
    · exact Or.inr ⟨r, h0, he⟩
  have hamong : ∀ (l' : List (XF ℝ)) (v : XF ℝ), (∀ x ∈ l', x ∈ col.fy) → Among l' v →
      v = .nan ∨ ∃ f : ℝ, 0 ≤ f ∧ v = .fin f := by
    rintro l' v hl' ⟨a, ha, b, hb, h1, h2⟩
    rw [lessEq_iff] at h1 h2
    rcases hfy a (hl' a ha) with rfl | ⟨f, hf, rfl⟩
    · simp [XF.le] at h1
    rcases hfy b (hl' b hb) with rfl | ⟨g, hg, rfl⟩
    · cases v <;> simp [XF.le] at h2
    cases v with
    | nan => exact Or.inl rfl
    | ninf => simp [XF.le] at h1
    | pinf => simp [XF.le] at h2
    | fin w =>
      simp only [XF.le, decide_eq_true_eq] at h1
      exact Or.inr ⟨w, hf.trans h1, rfl⟩
  rcases C59_scales c.dy rf col.fy col.radius (by rw [e1, e2]; simp [Shallot.radii]) hne hrf
    (fun x hx => (hfy x hx).imp id fun ⟨f, _, h⟩ => ⟨f, h⟩)
    (fun x hx => (hr x hx).imp id fun ⟨f, _, h⟩ => ⟨f, h⟩)
    (fun x hx h0 => by
      rcases hr x hx with h | ⟨r, h1, h2⟩
      · rw [h0] at h; cases h
      · rw [h0] at h2; cases h2; exact lt_irrefl _ h1) with ⟨-, he⟩ | ⟨i, m, v, h1, h2, h3, h4, h5, h6, h7⟩
  · rw [hi] at he; cases he
  · rw [hi] at h3
    simp only [Except.ok.injEq, Prod.mk.injEq] at h3
    obtain ⟨-, rfl⟩ := h3
    have hy' : y ∈ fy := by rw [e3] at hy; exact hy
    obtain ⟨j, hj⟩ := List.mem_iff_getElem?.1 hy'
    rcases lt_trichotomy j (rf.length - 1) with hlt | rfl | hgt
    · rcases h6 j y hlt hj with h | h
      · exact Or.inl h
      · exact hamong _ _ (fun x hx => List.mem_of_mem_take hx) h
    · rw [hj] at h5
      exact hfy y (List.mem_of_getElem? h5.symm)
    · rcases h7 j y hgt hj with h | h
      · exact Or.inl h
      · exact hamong _ _ (fun x hx => List.mem_of_mem_drop hx) h

/-- **C75, one cell.** -/
theorem C75_cell (c : Shallot.Cell ℝ) (dx dy : ℝ) (hc : CellAt c dx dy) (rf : List (XF ℝ))
    (hne : rf ≠ []) (hrf : ∀ x ∈ rf, ∃ k, x = .fin k) (col : Shallot.Column ℝ)
    (h : Shallot.column c rf = .ok col) (j : ℕ) (hj : j < 2 * rf.length - 1) :
    ∃ x y r i t, col.fx[j]? = some x ∧ col.fyValid[j]? = some y ∧ col.diskRadius[j]? = some r ∧
      col.inclination[j]? = some i ∧ col.tilt[j]? = some t ∧ LayerOf dx dy x y r i t := by
  obtain ⟨⟨-, -, -, -, l5⟩, hall, -⟩ := C57_cell c dx dy hc rf hne col h
  have hlt : j < col.fyValid.length := by rw [l5]; exact hj
  obtain ⟨x, r, i, t, k1, k2, k3, k4, k5, k6⟩ := hall j _ (List.getElem?_eq_getElem hlt)
  refine ⟨x, _, r, i, t, k1, List.getElem?_eq_getElem hlt, k3, k4, k5, ?_⟩
  subst k2
  exact layer_of c dx dy hc _ (column_fy c dx dy hc rf hne hrf col h _ (List.getElem_mem hlt)) r i t k6

/-- The same of the first quadrant. -/
theorem built_layers (g : GridParams ℝ) (hg : ShapedGrid g) (hf : FiniteGrid g)
    (hrf : ∀ x ∈ g.rf.data, ∃ k, x = .fin k) (num : ℕ)
    (y x : ℕ) (hy : y < g.dy.data.length) (hx : x < g.dx.data.length)
    (hb : Buildable g num y x) (r : ℕ) (hr : r < 2 * g.rf.data.length - 1) :
    ∃ dx dy : ℝ, g.dx.data[x]? = some (.fin dx) ∧ g.dy.data[y]? = some (.fin dy) ∧
      LayerOf dx dy ((built g num (·.fx)).at3 y x r) ((built g num (·.fyValid)).at3 y x r)
        ((built g num (·.diskRadius)).at3 y x r) ((built g num (·.inclination)).at3 y x r)
        ((built g num (·.tilt)).at3 y x r) := by
  obtain ⟨dx, hdx⟩ := get_fin _ hf.dx x hx
  obtain ⟨dy, hdy⟩ := get_fin _ hf.dy y hy
  refine ⟨dx, dy, hdx, hdy, ?_⟩
  by_cases hp : dy ≠ 0 ∨ dx = 0
  · have hc := cellFor_at g hf num y x dx dy hdx hdy hp
    have hsh : (cellFor g num y x).shear ≠ .nan := by
      rw [hc.shear_eq, shear_ok dx dy hp]; simp
    obtain ⟨col, hcol⟩ := hb.resolve_left hsh
    have hfor : columnFor g num y x = some col := by
      unfold columnFor
      rw [if_neg (fun h => hsh ((XF.isNan_iff _).1 h)), hcol]
    obtain ⟨a, b, c, d, e, k1, k2, k3, k4, k5, k6⟩ := C75_cell _ dx dy hc _ hg.rf hrf col hcol r hr
    have hget : ∀ f : Shallot.Column ℝ → List (XF ℝ), ∀ v, (f col)[r]? = some v →
        (built g num f).at3 y x r = v := by
      intro f v hv
      rw [built, at3_cubeOf _ _ _ _ hy hx hr]
      unfold layer
      rw [hfor]
      exact getD_of_get _ _ _ hv
    rw [hget _ _ k1, hget _ _ k2, hget _ _ k3, hget _ _ k4, hget _ _ k5]
    exact k6
  · have hp' : dy = 0 ∧ dx ≠ 0 := by
      constructor
      · by_contra h; exact hp (Or.inl h)
      · intro h; exact hp (Or.inr h)
    have hsh : (cellFor g num y x).shear = .nan := by
      unfold cellFor
      rw [getD_of_get _ _ _ hdx, getD_of_get _ _ _ hdy, hp'.1]
      exact shear_undefined dx hp'.2
    have hfor : columnFor g num y x = none := by
      unfold columnFor
      rw [if_pos ((XF.isNan_iff _).2 hsh)]
    have hget : ∀ f : Shallot.Column ℝ → List (XF ℝ), (built g num f).at3 y x r = .nan := by
      intro f
      rw [built, at3_cubeOf _ _ _ _ hy hx hr]
      unfold layer
      rw [hfor]
    rw [hget, hget, hget, hget, hget]
    exact Or.inl ⟨rfl, rfl, rfl, Or.inl rfl⟩

theorem linspace_finite (a b : ℝ) (n : ℕ) (hn : 1 ≤ n) :
    ∀ x ∈ linspace (.fin a) (.fin b) n, ∃ k : ℝ, x = .fin k := by
  intro x hx
  rcases hn.eq_or_lt with rfl | h
  · rw [linspace_one] at hx
    exact ⟨a, by simpa using hx⟩
  · rw [linspace_fin a b h] at hx
    obtain ⟨j, -, rfl⟩ := List.mem_map.1 hx
    exact ⟨_, rfl⟩

/-- Mirroring a layer. -/
theorem layer_mirror (up right : Bool) {dx dy : ℝ} {x y r i t : XF ℝ} (h : LayerOf dx dy x y r i t) :
    LayerOf (if right then dx else -dx) (if up then dy else -dy) x y r i (mirrored true up right t) := by
  rcases h with ⟨rfl, rfl, rfl, h⟩ | ⟨fx, fy, a, b, c, rfl, rfl, rfl, rfl, rfl, h1, h2, h3, h4, h5, h6, h7, h8, h9,
    h10, h11⟩
  · left
    refine ⟨rfl, rfl, ?_, h⟩
    cases up <;> cases right <;> simp [mirrored, XF.sub, XF.neg, XF.add]
  · right
    have h3' : Eclipse (-dy) fx fy := by unfold Eclipse at *; rw [neg_sq]; exact h3
    have h7' : Spans (-dx) (-dy) a b c := by
      have := spans_left (spans_down h7)
      rwa [sub_sub_cancel] at this
    have h11' : DiskOf (-dx) (-dy) fx fy a b c := by
      have := diskOf_left (diskOf_down h11)
      rwa [sub_sub_cancel] at this
    have hs : (XF.fin 180).sub (.fin c) = XF.fin (180 - c) := XF.sub_fin _ _
    cases up <;> cases right
    · exact ⟨fx, fy, a, b, c, rfl, rfl, rfl, rfl, by simp [mirrored], h1, h2, by simpa using h3', h4, h5, h6,
        by simpa using h7', h8, h9, by simpa using h10, by simpa using h11'⟩
    · exact ⟨fx, fy, a, b, 180 - c, rfl, rfl, rfl, rfl, by simp [mirrored, hs], h1, h2, by simpa using h3', h4,
        h5, h6, by simpa using spans_down h7, by linarith, by linarith, by simpa using h10,
        by simpa using diskOf_down h11⟩
    · exact ⟨fx, fy, a, b, 180 - c, rfl, rfl, rfl, rfl, by simp [mirrored, hs], h1, h2, by simpa using h3, h4,
        h5, h6, by simpa using spans_left h7, by linarith, by linarith, by simpa using h10,
        by simpa using diskOf_left h11⟩
    · exact ⟨fx, fy, a, b, c, rfl, rfl, rfl, rfl, by simp [mirrored], h1, h2, by simpa using h3, h4, h5, h6,
        by simpa using h7, h8, h9, by simpa using h10, by simpa using h11⟩

theorem mirrored_side {l l' : List (XF ℝ)} {n : ℕ} (h : Mirrored l l' n) {y : ℕ} (hy : y < 2 * n - 1) :
    ∃ (i : ℕ) (up : Bool) (v : ℝ), i < n ∧ side up (n - 1) i = y ∧ l[i]? = some (.fin v) ∧
      l'[y]? = some (.fin (if up && decide (0 < i) then v else -v)) := by
  by_cases hc : n - 1 < y
  · obtain ⟨v, h1, h2, -⟩ := h.values (y - (n - 1)) (by omega)
    refine ⟨y - (n - 1), true, v, by omega, by simp [side]; omega, h1, ?_⟩
    rw [if_pos (by simp; omega), ← h2]
    congr 1; omega
  · obtain ⟨v, h1, -, h2⟩ := h.values (n - 1 - y) (by omega)
    refine ⟨n - 1 - y, false, v, by omega, by simp [side]; omega, h1, ?_⟩
    rw [if_neg (by simp), ← h2]
    congr 1; omega

/-- **C75** Every element of a complete grid, in all four quadrants and all layers, holds either no
disk or one that spans the eclipse: the ellipse of the stored disk radius, inclination and tilt around
the stored centre passes through both end points, the tilt is from 0 to 180, the stored scale factors satisfy the relation
between them, and their ellipse is that of the disk. -/
theorem C75_grid (minX maxX numX minY maxY numY maxRf numRf : PyVal ℝ) (g : GridParams ℝ)
    (hg : GridParams.new minX maxX numX minY maxY numY maxRf numRf = .ok g) (a b c d m : ℝ)
    (ha : IsNumber false minX (.fin a)) (hb : IsNumber false maxX (.fin b))
    (hc : IsNumber false minY (.fin c)) (hd : IsNumber false maxY (.fin d))
    (hm : IsNumber false maxRf (.fin m))
    (hext : g.extendable = true → 2 ≤ g.sliceShape.1 ∧ 2 ≤ g.sliceShape.2) (v k : PyVal ℝ)
    (n : ℕ) (hn : Count v n) (keep : Bool) (hk : boolean k = .ok keep) (s : Shallot ℝ)
    (g' : GridParams ℝ) (h : Shallot.new v k g = (.ok s, g')) (y x r : ℕ)
    (hy : y < s.params.gridShape.1) (hx : x < s.params.gridShape.2.1)
    (hr : r < s.params.gridShape.2.2) :
    ∃ dx dy : ℝ, s.params.dx.data[x]? = some (.fin dx) ∧ s.params.dy.data[y]? = some (.fin dy) ∧
      LayerOf dx dy (s.fxMap.data.at3 y x r) (s.fyMap.data.at3 y x r) (s.diskRadius.data.at3 y x r)
        (s.inclination.data.at3 y x r) (s.tilt.data.at3 y x r) := by
  have hs := shapedGrid_new _ _ _ _ _ _ _ _ _ hg
  have hf := finiteGrid_new _ _ _ _ _ _ _ _ _ hg a b c d ha hb hc hd
  have hrf : ∀ x ∈ g.rf.data, ∃ k, x = .fin k := by
    obtain ⟨a', b', nx, c', d', ny, m', nr, -, -, ⟨h9, h10, h11⟩, rfl⟩ :=
      (new_ok_iff _ _ _ _ _ _ _ _ _).1 hg
    obtain rfl := isNumber_unique h9 hm
    exact linspace_finite 1 m nr h11.1
  obtain ⟨h1, h2⟩ := C72_new _ _ _ _ _ _ _ _ g hg hext v k n hn keep hk
  have hall : ∀ y x, y < g.dy.data.length → x < g.dx.data.length → Buildable g n y x := by
    by_contra hno
    push Not at hno
    obtain ⟨e, he⟩ := h2 hno
    rw [he] at h
    cases h
  obtain ⟨s', d', e1, e2, -⟩ := h1 hall
  rw [e1] at h
  obtain ⟨rfl, rfl⟩ : s' = s ∧ s'.params = g' := by
    injection h with h h'
    injection h with h
    exact ⟨h, h'⟩
  have hgs : (builtGrid g v d').params.gridShape =
      (g.dy.data.length, g.dx.data.length, 2 * g.rf.data.length - 1) := hs.grid
  have hp : (builtGrid g v d').params = g := rfl
  have hbuilt : ∀ f, built g v.toInt.toNat f = built g n f := by intro f; rw [count_toInt hn]
  by_cases hex : g.extendable = true
  · have mx := e2.vectorX hex
    have my := e2.vectorY hex
    rw [hp, hs.slice] at mx my
    simp only at mx my
    have hsh := e2.shaped.grid
    rw [mx.length', my.length', e2.rf, hp] at hsh
    rw [hsh] at hy hx hr
    simp only at hy hx hr
    obtain ⟨i, up, vy, hi, rfl, ey, ey'⟩ := mirrored_side my hy
    obtain ⟨j, right, vx, hj, rfl, ex, ex'⟩ := mirrored_side mx hx
    obtain ⟨dx, dy, q1, q2, q3⟩ := built_layers g hs hf hrf n i j hi hj (hall i j hi hj) r hr
    rw [ex] at q1
    rw [ey] at q2
    cases q1
    cases q2
    refine ⟨_, _, ex', ey', ?_⟩
    have hval : ∀ p q, (p, q) ∈ [((builtGrid g v d').diskRadius, s'.diskRadius),
        ((builtGrid g v d').inclination, s'.inclination), ((builtGrid g v d').fxMap, s'.fxMap),
        ((builtGrid g v d').fyMap, s'.fyMap)] →
        q.data.at3 (side up (g.dy.data.length - 1) i) (side right (g.dx.data.length - 1) j) r =
          p.data.at3 i j r := by
      intro p q hpq
      have hmir := e2.mirror hex p q hpq
      rw [hgs] at hmir
      have := hmir.values i j r hi hj hr up right
      simpa [mirrored] using this
    have htilt := e2.tilt hex
    rw [hgs] at htilt
    rw [hval _ _ (by simp : ((builtGrid g v d').diskRadius, s'.diskRadius) ∈ _),
      hval _ _ (by simp : ((builtGrid g v d').inclination, s'.inclination) ∈ _),
      hval _ _ (by simp : ((builtGrid g v d').fxMap, s'.fxMap) ∈ _),
      hval _ _ (by simp : ((builtGrid g v d').fyMap, s'.fyMap) ∈ _),
      htilt.values i j r hi hj hr up right]
    have := layer_mirror (up && decide (0 < i)) (right && decide (0 < j)) q3
    simp only [← hbuilt] at this
    exact this
  · have hplain := e2.plain (by rw [hp]; simpa using hex)
    have hpar : s'.params = g := by rw [hplain]; rfl
    have hsh := e2.shaped.grid
    rw [hpar] at hsh hy hx hr ⊢
    rw [hsh] at hy hx hr
    obtain ⟨dx, dy, q1, q2, q3⟩ := built_layers g hs hf hrf n y x hy hx (hall y x hy hx) r hr
    refine ⟨dx, dy, q1, q2, ?_⟩
    rw [hplain]
    simp only [← hbuilt] at q3
    exact q3

/-- A complete grid of three by three centres with a disk at (2, 2): it meets the hypotheses of `C75_grid`,
and the second case of its conclusion occurs. -/
theorem throwAway_spans : ∃ s, Shallot.new (.int 100) (.bool false) throwAway = (.ok s, s.params) ∧
    s.params.gridShape = (3, 3, 3) ∧ ∃ dx dy a b c : ℝ, s.params.dx.data[2]? = some (.fin dx) ∧
      s.params.dy.data[2]? = some (.fin dy) ∧ s.diskRadius.data.at3 2 2 1 = .fin a ∧
      s.inclination.data.at3 2 2 1 = .fin b ∧ s.tilt.data.at3 2 2 1 = .fin c ∧ 0 < a ∧ 0 ≤ b ∧ b < 90 ∧
      Spans dx dy a b c ∧ 0 ≤ c ∧ c ≤ 180 := by
  obtain ⟨s, d, h1, h2, hgs, p, hp, R, hR, hR', -⟩ := throwAway_disk
  obtain ⟨dx, dy, e1, e2, h⟩ := C75_grid _ _ _ _ _ _ _ _ throwAway throwAway_new 0 1 0 1 2
    (Or.inl ⟨0, .int 0, by simp⟩) (Or.inl ⟨1, .int 1, by simp⟩) (Or.inl ⟨0, .int 0, by simp⟩)
    (Or.inl ⟨1, .int 1, by simp⟩) (Or.inl ⟨2, .int 2, by simp⟩) (fun _ => ⟨le_rfl, le_rfl⟩) (.int 100)
    (.bool false) 100 count_hundred false rfl s _ h1 2 2 1 (by rw [hgs]; norm_num)
    (by rw [hgs]; norm_num) (by rw [hgs]; norm_num)
  rcases h with ⟨hn, -⟩ | ⟨fx, fy, a, b, c, -, -, k1, k2, k3, -, -, -, k4, k5, k6, k7, k8, k9, -⟩
  · rw [hR'] at hn; cases hn
  · exact ⟨s, h1, hgs, dx, dy, a, b, c, e1, e2, k1, k2, k3, k4, k5, k6, k7, k8, k9⟩

end Beyonce
