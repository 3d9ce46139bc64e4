import Verif.Props.Solutions

/-!
# Grids that meet the hypotheses of C45, C46, C48 and C74
-/

set_option linter.unusedSectionVars false

namespace Beyonce
open Spec Geometry Real

/-- Scale factors that give a disk are numbers other than 0. -/
theorem scales_finite (d : ℝ) (y sh R : XF ℝ) (m : ℝ)
    (h : (diskParameters (determineFx (.fin d) y) y sh R).1 = .fin m) :
    ∃ a b : ℝ, determineFx (.fin d) y = .fin a ∧ y = .fin b ∧ a ≠ 0 ∧ b ≠ 0 := by
  have hnan : determineFx (.fin d) y ≠ .nan := by
    intro hn
    rw [diskParameters_nan _ _ _ _ (Or.inl hn)] at h
    cases h
  cases y with
  | nan => exact absurd (by simp [determineFx, XF.sq, XF.mul, XF.sub, XF.add, XF.le, XF.div, XF.sqrt]) hnan
  | ninf =>
    refine absurd ?_ hnan
    simp only [determineFx, XF.sq_fin, XF.mul_fin, XF.add_fin, XF.sq, XF.mul, XF.infSign]
    have h2 : (0 : ℝ) < 1 + 4 * (d * d) := by nlinarith [mul_self_nonneg d]
    simp [h2, XF.sub, XF.neg, XF.add, XF.le, XF.div, XF.sqrt, XF.mul, XF.infSign, RealFns.sqrt]
  | pinf =>
    refine absurd ?_ hnan
    simp only [determineFx, XF.sq_fin, XF.mul_fin, XF.add_fin, XF.sq, XF.mul, XF.infSign]
    have h2 : (0 : ℝ) < 1 + 4 * (d * d) := by nlinarith [mul_self_nonneg d]
    simp [h2, XF.sub, XF.neg, XF.add, XF.le, XF.div, XF.sqrt, XF.mul, XF.infSign, RealFns.sqrt]
  | fin b =>
    by_cases hD : 0 < b ^ 2 * (1 + 4 * d ^ 2) - 4 * d ^ 2
    · have hb : b ≠ 0 := by
        rintro rfl
        have : 0 ≤ d ^ 2 := sq_nonneg d
        simp at hD
        linarith
      refine ⟨_, b, determineFx_fin d b hD, rfl, div_ne_zero hb (sqrt_pos.2 hD).ne', hb⟩
    · exfalso
      apply hnan
      unfold determineFx
      simp only [XF.sq_fin, XF.mul_fin, XF.add_fin, XF.sub_fin, XF.le_fin]
      rw [if_pos (by rw [decide_eq_true_eq]; nlinarith [not_lt.1 hD])]
      rfl

theorem built_scales (g : GridParams ℝ) (hg : ShapedGrid g) (hf : FiniteGrid g) (num : ℕ)
    (y x : ℕ) (hy : y < g.dy.data.length) (hx : x < g.dx.data.length)
    (hb : Buildable g num y x) : ∃ dx dy : ℝ, g.dx.data[x]? = some (.fin dx) ∧
      g.dy.data[y]? = some (.fin dy) ∧
      ((dy ≠ 0 ∨ dx = 0) → ∃ a b : ℝ, a ≠ 0 ∧ b ≠ 0 ∧
        (built g num (·.fx)).at3 y x (g.rf.data.length - 1) = .fin a ∧
        (built g num (·.fyValid)).at3 y x (g.rf.data.length - 1) = .fin b) := by
  obtain ⟨dx, hdx⟩ := get_fin _ hf.dx x hx
  obtain ⟨dy, hdy⟩ := get_fin _ hf.dy y hy
  have hlen : 0 < g.rf.data.length := List.length_pos_iff.2 hg.rf
  refine ⟨dx, dy, hdx, hdy, ?_⟩
  intro hp
  have hc := cellFor_at g hf num y x dx dy hdx hdy hp
  have hsh : (cellFor g num y x).shear ≠ .nan := by
    rw [hc.shear_eq, shear_ok dx dy hp]; simp
  obtain ⟨col, hcol⟩ := hb.resolve_left hsh
  have hfor : columnFor g num y x = some col := by
    unfold columnFor
    rw [if_neg (fun h => hsh ((XF.isNan_iff _).1 h)), hcol]
  obtain ⟨⟨-, -, -, -, l5⟩, hall, R, hR, h1, h2, h3⟩ := C57_cell _ dx dy hc _ hg.rf col hcol
  have hlt : g.rf.data.length - 1 < col.fyValid.length := by rw [l5]; omega
  obtain ⟨x', r, i, t, k1, k2, k3, -, -, k6⟩ := hall _ _ (List.getElem?_eq_getElem hlt)
  rw [h3] at k3
  have hr : r = .fin R := (Option.some.inj k3).symm
  have k7 : (diskParameters x' (col.fyValid[g.rf.data.length - 1]'hlt) (cellFor g num y x).shear
      (cellFor g num y x).radius).1 = .fin R := by rw [k6, hr]
  rw [k2, hc.dy_eq] at k7
  obtain ⟨a, b, e1, e2, ha, hb'⟩ := scales_finite dy _ _ _ _ k7
  refine ⟨a, b, ha, hb', ?_, ?_⟩
  · rw [built, at3_cubeOf _ _ _ _ hy hx (by omega)]
    unfold layer
    rw [hfor]
    refine getD_of_get _ _ _ ?_
    rw [k1, k2, hc.dy_eq, e1]
  · rw [built, at3_cubeOf _ _ _ _ hy hx (by omega)]
    unfold layer
    rw [hfor]
    refine getD_of_get _ _ _ ?_
    rw [List.getElem?_eq_getElem hlt, e2]

/-- In a complete grid the scale factors of the `rf = 1` layer are numbers other than 0. -/
theorem complete_scales (g : GridParams ℝ) (hg : ShapedGrid g) (hf : FiniteGrid g) (v : PyVal ℝ) (n : ℕ)
    (hn : Count v n) (hall : ∀ y x, y < g.dy.data.length → x < g.dx.data.length → Buildable g n y x)
    (d) (s : Shallot ℝ) (h : CompleteFrom (builtGrid g v d) s) (y x : ℕ)
    (hy : y < s.params.gridShape.1) (hx : x < s.params.gridShape.2.1) (dx dy : ℝ)
    (hdx : s.params.dx.data.getD x .nan = .fin dx) (hdy : s.params.dy.data.getD y .nan = .fin dy)
    (hp : dy ≠ 0 ∨ dx = 0) : ∃ a b : ℝ, a ≠ 0 ∧ b ≠ 0 ∧
      s.fxMap.data.at3 y x (g.rf.data.length - 1) = .fin a ∧
      s.fyMap.data.at3 y x (g.rf.data.length - 1) = .fin b := by
  have hlen : 0 < g.rf.data.length := List.length_pos_iff.2 hg.rf
  have hgs : (builtGrid g v d).params.gridShape =
      (g.dy.data.length, g.dx.data.length, 2 * g.rf.data.length - 1) := hg.grid
  have hpar : (builtGrid g v d).params = g := rfl
  have place : ∀ i j, i < g.dy.data.length → j < g.dx.data.length →
      SameSize (s.params.dy.data.getD y .nan) (g.dy.data.getD i .nan) →
      SameSize (s.params.dx.data.getD x .nan) (g.dx.data.getD j .nan) → ∃ a b : ℝ, a ≠ 0 ∧ b ≠ 0 ∧
        (built g n (·.fx)).at3 i j (g.rf.data.length - 1) = .fin a ∧
        (built g n (·.fyValid)).at3 i j (g.rf.data.length - 1) = .fin b := by
    intro i j hi hj si sj
    obtain ⟨dx0, dy0, h1, h2, h3⟩ := built_scales g hg hf n i j hi hj (hall i j hi hj)
    rw [getD_of_get _ _ _ h2] at si
    rw [getD_of_get _ _ _ h1] at sj
    obtain ⟨dy', e1, zy⟩ := sameSize_fin _ _ si
    obtain ⟨dx', e2, zx⟩ := sameSize_fin _ _ sj
    rw [hdy] at e1
    rw [hdx] at e2
    cases e1
    cases e2
    refine h3 ?_
    rcases hp with h | h
    · exact Or.inl fun e => h (zy.2 e)
    · exact Or.inr (zx.1 h)
  obtain ⟨-, -, hfx⟩ := h.fxMap
  obtain ⟨-, -, hfy⟩ := h.fyMap
  obtain ⟨i, j, hi, hj, si, sj, hv⟩ := hfx y x hy hx
  obtain ⟨i', j', hi', hj', si', sj', hv'⟩ := hfy y x hy hx
  rw [hgs] at hi hj hi' hj' hv hv'
  simp only at hi hj hi' hj' hv hv'
  rw [hpar] at si sj si' sj'
  obtain ⟨a, -, ha, -, ea, -⟩ := place i j hi hj si sj
  obtain ⟨-, b, -, hb, -, eb⟩ := place i' j' hi' hj' si' sj'
  have b1 : (builtGrid g v d).fxMap.data = built g n (·.fx) := by
    show built g v.toInt.toNat _ = _
    rw [count_toInt hn]
  have b2 : (builtGrid g v d).fyMap.data = built g n (·.fyValid) := by
    show built g v.toInt.toNat _ = _
    rw [count_toInt hn]
  refine ⟨a, b, ha, hb, ?_, ?_⟩
  · rw [hv _ (by omega), b1, ea]
  · rw [hv' _ (by omega), b2, eb]

/-- The gradient of a disk centred above or below the star, at the position `p`. -/
theorem gradient_above (p dy a b : ℝ) (hdy : dy ≠ 0) (ha : a ≠ 0) (hb : b ≠ 0) :
    ∃ g : ℝ, diskGradient (.fin p) (.fin 0) (.fin dy) (.fin 0) (.fin a) (.fin b) = .fin g ∧ 0 ≤ g ∧
      (p ≠ 0 → 0 < g) := by
  obtain ⟨t, ht, ht0⟩ : ∃ t : ℝ, t = b ^ 2 * p / (a ^ 2 * dy) ∧ (p ≠ 0 → t ≠ 0) :=
    ⟨_, rfl, fun hp => by positivity⟩
  refine ⟨|t| / √(1 + t ^ 2), ?_, by positivity, fun hp => ?_⟩
  · rw [← abs_sin_arg]
    unfold diskGradient
    simp only [XF.neg_fin, XF.sub_fin, XF.mul_fin, XF.add_fin, XF.sq_fin]
    have hden : (0 * 0 * (b * b) + a * a) * -dy + 0 * (b * b) * (p - 0) ≠ 0 := by
      have : a ^ 2 * dy ≠ 0 := by positivity
      intro h
      apply this
      linarith
    rw [if_pos (by simpa [XF.eqb] using hden), XF.div_fin _ _ hden, XF.arctan2_fin, XF.sin_fin, XF.abs_fin]
    have : (-0 * (b * b) * -dy - b * b * (p - 0)) /
        ((0 * 0 * (b * b) + a * a) * -dy + 0 * (b * b) * (p - 0)) = t := by
      rw [ht]
      field_simp
      ring
    rw [this]
  · have := ht0 hp
    positivity

/-- A complete grid of three by three centres with eclipse parameters.  At its elements 4 and 22, above
and below the star, the gradients are numbers. -/
theorem throwAway_axis_from : ∃ s₀ s : Shallot ℝ,
    Shallot.new (.int 100) (.bool false) throwAway = (.ok s₀, s₀.params) ∧
    s = runGrid [.eclipse (.int 1) (.int 1) (.int 0)] s₀ ∧ s.fxMap = s₀.fxMap ∧ s.fyMap = s₀.fyMap ∧
    s₀.params.gridShape = (3, 3, 3) ∧
    Sound s ∧ s.params.gridShape = (3, 3, 3) ∧ s.ready = true ∧
    Duration s (.int 1) ∧ (∃ k : ℝ, 0 < k ∧ k ≤ 2 ∧ s.orbital = .ok (.float (.fin k))) ∧
    (s.diskRadius.mask = none ∧ s.inclination.mask = none ∧ s.tilt.mask = none) ∧
    s.gradients = none ∧ s.gradientFit = none ∧ s.diagnosticMap ≠ none ∧
    ∀ i : ℕ, i = 4 ∨ i = 22 → ∀ p : ℝ, ∃ g : ℝ, (s.gradientCube (.fin p)).data[i]? = some (.fin g) ∧
      0 ≤ g ∧ (p ≠ 0 → 0 < g) := by
  obtain ⟨s₀, d, h1, h2⟩ := throwAway_grid
  have hs := sound_complete h2
  have hrf : s₀.params.rf.data.length = 2 := by
    rw [h2.rf]; exact throwAway_length.2.2
  have hl : linspace (.fin 0) (.fin 1) 2 = [XF.fin (0 : ℝ), .fin 1] := two_points 0 1 one_pos
  have hex : (builtGrid throwAway (.int 100) d).params.extendable = true := by
    show throwAway.extendable = true
    simp [throwAway, gridOf, hl, XF.eqb]
  have mx := h2.vectorX hex
  have my := h2.vectorY hex
  have hgs : s₀.params.gridShape = (3, 3, 3) := by
    rw [h2.shaped.grid, hrf, mx.length', my.length']; rfl
  have hx1 : s₀.params.dx.data.getD 1 .nan = .fin 0 := by
    obtain ⟨w, h3, h4, -⟩ := mx.values 0 (by show 0 < 2; norm_num)
    have h3' : ([XF.fin 0, .fin 1] : List (XF ℝ))[0]? = some (.fin w) := by rw [← hl]; exact h3
    have e1 : (0 : ℝ) = w := by simpa using h3'
    rw [← e1] at h4
    exact getD_of_get _ _ _ h4
  have hy : ∀ y, y = 0 ∨ y = 2 → ∃ dy : ℝ, dy ≠ 0 ∧ s₀.params.dy.data.getD y .nan = .fin dy := by
    obtain ⟨w, h3, h4, h5⟩ := my.values 1 (by show 1 < 2; norm_num)
    have h3' : ([XF.fin 0, .fin 1] : List (XF ℝ))[1]? = some (.fin w) := by rw [← hl]; exact h3
    have e1 : (1 : ℝ) = w := by simpa using h3'
    rw [← e1] at h4 h5
    rintro y (rfl | rfl)
    · exact ⟨-1, by norm_num, getD_of_get _ _ _ h5⟩
    · exact ⟨1, by norm_num, getD_of_get _ _ _ h4⟩
  have hn : NotNegative (K := ℝ) (.int 1) := ⟨_, int_isNumber 1, by rw [less_iff]; simp⟩
  have hfr : Fraction (K := ℝ) (.int 0) :=
    ⟨_, int_isNumber 0, by rw [less_iff]; simp, by rw [less_iff]; simp⟩
  have he := (C49_partial s₀ (fun _ => h2.nothing.2.1) (.int 1) (.int 1) (.int 0)).1 ⟨hn, hn, hfr⟩
  have hs' := exec_sound (.eclipse (.int 1) (.int 1) (.int 0)) s₀ hs
  have hexe : GridOp.exec (.eclipse (.int 1) (.int 1) (.int 0)) s₀ =
    (Shallot.setEclipseParameters (.int 1) (.int 1) (.int 0) s₀).2 := rfl
  rw [hexe, he] at hs'
  refine ⟨s₀, _, h1, (congrArg Prod.snd he).symm, rfl, rfl, hgs, hs', hgs, rfl, ⟨rfl, rfl⟩, orbital_int _ 1 le_rfl rfl rfl,
    ⟨h2.masks.1, h2.masks.2.1, h2.masks.2.2.1⟩, rfl, rfl, by simp [h2.map], ?_⟩
  have key : ∀ y, y = 0 ∨ y = 2 → ∀ p : ℝ, ∃ g : ℝ, (s₀.gradientCube (.fin p)).data[(y * 3 + 1) * 3 + 1]? =
      some (.fin g) ∧ 0 ≤ g ∧ (p ≠ 0 → 0 < g) := by
    intro y hy' p
    obtain ⟨dy, hdy, ey⟩ := hy y hy'
    have hylt : y < 3 := by omega
    have hf : FiniteGrid throwAway := finiteGrid_new _ _ _ _ _ _ _ _ _ throwAway_new 0 1 0 1
      (Or.inl ⟨0, .int 0, by simp⟩) (Or.inl ⟨1, .int 1, by simp⟩) (Or.inl ⟨0, .int 0, by simp⟩)
      (Or.inl ⟨1, .int 1, by simp⟩)
    obtain ⟨a, b, ha, hb, ea, eb⟩ := complete_scales throwAway
      (shapedGrid_new _ _ _ _ _ _ _ _ _ throwAway_new) hf (.int 100) 100 count_hundred
      (fun y x hy hx => throwAway_buildable y x (by rwa [throwAway_length.2.1] at hy) (by
        rwa [throwAway_length.1] at hx)) d s₀ h2 y 1 (by rw [hgs]; exact hylt) (by rw [hgs]; norm_num) 0 dy
      hx1 ey (Or.inl hdy)
    rw [throwAway_length.2.2] at ea eb
    obtain ⟨g, h3, h4, h5⟩ := gradient_above p dy a b hdy ha hb
    refine ⟨g, ?_, h4, h5⟩
    unfold Shallot.gradientCube
    rw [hgs]
    simp only
    rw [cubeOf_get 3 3 3 _ hylt (by norm_num : 1 < 3) (by norm_num : 1 < 3), hx1, ey,
      h2.shear y 1 (by rw [hgs]; exact hylt) (by rw [hgs]; norm_num), hx1, ey]
    have hsh : Geometry.shear (.fin 0) (.fin dy) = .fin (0 : ℝ) := by
      rw [shear_ok 0 dy (Or.inl hdy)]; simp [shearOf]
    rw [hsh, ea, eb, h3]
  rintro i (rfl | rfl)
  · exact key 0 (Or.inl rfl)
  · exact key 2 (Or.inr rfl)

/-- The same without its history. -/
theorem throwAway_axis : ∃ s : Shallot ℝ, Sound s ∧ s.params.gridShape = (3, 3, 3) ∧ s.ready = true ∧
    Duration s (.int 1) ∧ (∃ k : ℝ, 0 < k ∧ k ≤ 2 ∧ s.orbital = .ok (.float (.fin k))) ∧
    (s.diskRadius.mask = none ∧ s.inclination.mask = none ∧ s.tilt.mask = none) ∧
    s.gradients = none ∧ s.gradientFit = none ∧ s.diagnosticMap ≠ none ∧
    ∀ i : ℕ, i = 4 ∨ i = 22 → ∀ p : ℝ, ∃ g : ℝ, (s.gradientCube (.fin p)).data[i]? = some (.fin g) ∧
      0 ≤ g ∧ (p ≠ 0 → 0 < g) := by
  obtain ⟨-, s, -, -, -, -, -, h⟩ := throwAway_axis_from
  exact ⟨s, h⟩

/-- A measurement with transmission 1. -/
noncomputable def Spec.probe (t x e : ℝ) : Measurement ℝ := ⟨.fin t, .fin x, .fin e, .fin 1⟩

/-- `determine_mask` accepts it, and what is stored. -/
theorem probe_ok (s : Shallot ℝ) (k t x e : ℝ) (hk : 0 < k) (hk2 : k ≤ 2) (hx : 0 ≤ x) (hx2 : x ≤ 1 / 2)
    (he : 0 ≤ e) : Passable (probe t x e) ∧
      ∃ g, gradientOf s (.int 1) (.float (.fin k)) (probe t x e) = (.ok (), g) ∧
        g.prop.data = s.gradientCube (.fin (-t)) ∧ g.prop.mask = some ⟨g.prop.data.shape,
          g.prop.data.data.map (GGrad.maskAt (.fin (x * k)))⟩ ∧ g.error = some (.npFloat .w64 (.fin e)) ∧
        g.scaled = .ok (some (.fin (x * k))) := by
  have hp : Passable (probe t x e) := by
    refine ⟨?_, ?_, ?_, ?_⟩
    · rw [less_iff]; simpa [probe] using hx
    · rw [less_iff]; simpa [probe] using he
    · rw [less_iff]; simp [probe]
    · rw [less_iff]; simp [probe]
  refine ⟨hp, ?_⟩
  have hpos : (XF.fin t).neg.div (PyVal.int 1 : PyVal ℝ).num = .fin (-t) := by
    simp [PyVal.num, XF.neg, XF.div]
  have hgo : gradientOf s (.int 1) (.float (.fin k)) (probe t x e) =
      GGrad.determineMask (.npFloat .w64 (.fin x)) (.float (.fin k)) (.npFloat .w64 (.fin 1))
        (.npFloat .w64 (.fin e)) (blank s (.fin (-t))) := by
    unfold gradientOf measure
    show GGrad.determineMask (.npFloat .w64 (XF.fin x).abs) _ _ _ (blank s ((XF.fin t).neg.div _)) = _
    rw [hpos, XF.abs_fin, abs_of_nonneg hx]
    rfl
  obtain ⟨g', hg'⟩ := (C34_succeeds_iff (.npFloat .w64 (.fin x)) (.float (.fin k))
    (.npFloat .w64 (.fin 1)) (.npFloat .w64 (.fin e)) (blank s (.fin (-t))) x k 1
    (Or.inr ⟨rfl, .npFloat _ _⟩) (Or.inr ⟨rfl, .float _⟩) (Or.inr (Or.inr ⟨rfl, .npFloat _ _⟩))
    one_pos).2 ⟨hx, hk.le, le_rfl, ⟨.fin e, Or.inr (Or.inr ⟨rfl, .npFloat _ _⟩), by
      rw [less_iff]; simpa using he⟩, by nlinarith⟩
  have e1 : ∀ y, orOne (.npFloat .w64 y : PyVal ℝ) = .npFloat .w64 y := by intro y; simp [orOne]
  obtain ⟨b, hb⟩ : ∃ b, b = blank s (.fin (-t)) := ⟨_, rfl⟩
  have hbp : b.prop.data = s.gradientCube (.fin (-t)) := by rw [hb]; rfl
  rw [← hb] at hgo hg'
  rw [hgo]
  rcases determineMask_cases (.npFloat .w64 (.fin x)) (.float (.fin k)) (.npFloat .w64 (.fin 1))
      (.npFloat .w64 (.fin e)) b with ⟨-, e, h'⟩ | ⟨-, -, e, h'⟩ | ⟨-, -, -, e, h'⟩ |
      ⟨-, -, -, -, e, h'⟩ | ⟨-, -, -, -, ⟨e, -, h'⟩ | ⟨q, hq1, hq2⟩⟩
  all_goals first | (rw [h'] at hg'; cases hg') | skip
  rcases hq2 with ⟨-, h'⟩ | ⟨hlt, h'⟩
  · rw [h'] at hg'; cases hg'
  have hst := scaled_stored b (.npFloat .w64 (.fin x)) (.float (.fin k)) (.npFloat .w64 (.fin 1))
    (.npFloat .w64 (.fin e))
  rw [hq1] at hst
  simp only at hst
  rw [hlt] at hst
  rw [e1] at hq1
  have hq3 : q = .fin 1 := by
    have : q = (XF.fin 1).div (.fin 1) := (Except.ok.inj hq1).symm
    rw [this, XF.div_fin _ _ one_ne_zero, div_one]
  subst hq3
  have hval : (PyVal.npFloat .w64 (.fin x) : PyVal ℝ).num.mul
      ((PyVal.float (.fin k) : PyVal ℝ).num.mul (.fin 1)) = .fin (x * k) := by
    show (XF.fin x).mul ((XF.fin k).mul (.fin 1)) = _
    rw [XF.mul_fin, XF.mul_fin, mul_one]
  rw [hval] at h' hst
  refine ⟨_, h', hbp, rfl, congrArg some (e1 _), ?_⟩
  exact hst

/-- The grid with one measurement added. -/
theorem throwAway_probe (t x e : ℝ) (hx : 0 ≤ x) (hx2 : x ≤ 1 / 2) (he : 0 ≤ e) :
    ∃ (s s₁ : Shallot ℝ) (g : GGrad ℝ) (k : ℝ), Sound s ∧ s.ready = true ∧ s.gradients = none ∧
      s.orbital = .ok (.float (.fin k)) ∧ 0 < k ∧
      s.diagnosticMap ≠ none ∧ addCalls [[probe t x e]] s = (.ok (), s₁) ∧ Sound s₁ ∧
      s₁.params.gridShape = (3, 3, 3) ∧ s₁.diagnosticMap ≠ none ∧ s₁.gradients = some [g] ∧
      g.prop.data = s.gradientCube (.fin (-t)) ∧ g.error = some (.npFloat .w64 (.fin e)) ∧
      g.scaled = .ok (some (.fin (x * k))) ∧
      (∀ i, MaskedAt s₁ i ↔ Marked g.prop.mask i) ∧ g.prop.mask = some ⟨g.prop.data.shape,
          g.prop.data.data.map (GGrad.maskAt (.fin (x * k)))⟩ ∧
      ∀ i : ℕ, i = 4 ∨ i = 22 → ∃ v : ℝ, g.prop.data.data[i]? = some (.fin v) ∧ 0 ≤ v ∧
        (t ≠ 0 → 0 < v) := by
  obtain ⟨s, hs, hgs, hr, hd, ⟨k, hk, hk2, ho⟩, ⟨m1, m2, m3⟩, hg, hf, hdm, hv⟩ := throwAway_axis
  obtain ⟨hp, g, hg1, hg2, hg3, hg4, hg5⟩ := probe_ok s k t x e hk hk2 hx hx2 he
  obtain ⟨s₁, h1⟩ := addCalls_of [[probe t x e]] s hr _ _ hd ho (by
    intro q hq
    have : q = probe t x e := by simpa using hq
    rw [this, hg1]
    exact ⟨hp, rfl⟩)
  have hs₁ := addCalls_sound [[probe t x e]] s hs
  rw [h1] at hs₁
  obtain ⟨d, scale, hd', ho', -, he'⟩ := addCalls_ok _ s s₁ hr (by simp) h1
  have hdd : d = .int 1 := by
    have := hd'.eq
    rw [hd.eq] at this
    exact (Option.some.inj this).symm
  subst hdd
  rw [ho] at ho'
  cases ho'
  have hgr : s₁.gradients = some [g] := by
    rw [he', hg]
    simp [hg1]
  refine ⟨s, s₁, g, k, hs, hr, hg, ho, hk, hdm, h1, hs₁, by rw [he']; exact hgs, by rw [he']; exact hdm, hgr, hg2,
    hg4, hg5, ?_, hg3, ?_⟩
  · intro i
    unfold MaskedAt
    have e1 : s₁.diskRadius.mask = none := by rw [he']; exact m1
    have e2 : s₁.inclination.mask = none := by rw [he']; exact m2
    have e3 : s₁.tilt.mask = none := by rw [he']; exact m3
    rw [e1, e2, e3, hgr]
    simp [Marked]
  · intro i hi
    obtain ⟨v, h3, h4, h5⟩ := hv i hi (-t)
    exact ⟨v, by rw [hg2]; exact h3, h4, fun h => h5 (neg_ne_zero.2 h)⟩

/-- Element `i` of the grid is not masked if its gradient is a number that is large enough. -/
theorem probe_unmasked {s₁ : Shallot ℝ} {g : GGrad ℝ} {m v : ℝ} {i : ℕ} (hgs : s₁.params.gridShape = (3, 3, 3))
    (h1 : ∀ i, MaskedAt s₁ i ↔ Marked g.prop.mask i)
    (h2 : g.prop.mask = some ⟨g.prop.data.shape, g.prop.data.data.map (GGrad.maskAt (.fin m))⟩)
    (hi : i < 27) (hv : g.prop.data.data[i]? = some (.fin v)) (hm : m ≤ v) : i ∈ unmasked s₁ := by
  rw [mem_unmasked]
  refine ⟨by unfold elements; rw [hgs]; exact hi, ?_⟩
  rw [h1, h2]
  rintro ⟨m', ⟨⟩, h⟩
  rw [List.getElem?_map, hv] at h
  simp only [Option.map_some, Option.some.injEq, GGrad.maskAt, XF.lt, XF.isNan, Bool.or_false,
    decide_eq_true_eq] at h
  linarith

/-- The hypotheses of `C45_measured`, `C45_best_partial`, `C46_next_partial` and `C46_false` are met by
a grid with one measurement, with at least two unmasked elements: the best solution, then the next. -/
example : ∃ (s : Shallot ℝ) (v : ℕ → ℝ) (is is' : List ℕ) (rows rows' : List (Shallot.Solution ℝ))
    (s' s'' : Shallot ℝ), Sound s ∧ FitIs s v ∧ 2 ≤ (unmasked s).card ∧
    Shallot.extractSolutions (.int 1) s = (.ok rows, s') ∧
    Shallot.extractSolutions (.int 1) s' = (.ok rows', s'') ∧ is.length = 1 ∧ is'.length = 1 ∧
    (is ++ is').Nodup ∧ (is ++ is').Pairwise (Better v) ∧ rows.length = 1 := by
  obtain ⟨s, s₁, g, k, hs, hr, hg, ho, hk, hdm, h1, hs₁, hgs, hdm₁, hgr, -, -, -, h3, h4, h5⟩ :=
    throwAway_probe 0 0 1 le_rfl (by norm_num) zero_le_one
  obtain ⟨s₂, v, g1, g2, g3, g4, g5⟩ := C45_measured s s₁ hs hr hg [[probe 0 0 1]] (by simp) h1
    (by rintro w hw; rw [ho] at hw; cases hw; exact ⟨k, rfl⟩)
    (by
      intro q hq
      have : q = probe 0 0 1 := by simpa using hq
      subst this
      exact ⟨0, 1, 1, rfl, rfl, one_pos, rfl, one_pos⟩) true
  have hsame : ∃ p, s₂ = { s₁ with gradientFit := some p } := by
    rcases determineFit_cases true s₁ with ⟨h, -⟩ | ⟨gs, -, ⟨e, h, -⟩ | ⟨p, data, -, -, -, h⟩⟩
    · rw [hgr] at h; cases h
    · rw [g1] at h; cases h
    · rw [g1] at h
      exact ⟨p, by injection h⟩
  obtain ⟨p, hp⟩ := hsame
  have hun : unmasked s₂ = unmasked s₁ := by
    ext i
    rw [mem_unmasked, mem_unmasked, hp]
    rfl
  have hcard : 2 ≤ (unmasked s₂).card := by
    have hsub : ({4, 22} : Finset ℕ) ⊆ unmasked s₂ := by
      intro i hi
      simp only [Finset.mem_insert, Finset.mem_singleton] at hi
      obtain ⟨v, hv, hv0, -⟩ := h5 i hi
      rw [hun]
      exact probe_unmasked hgs h3 h4 (by omega) hv (by simpa using hv0)
    exact Finset.card_le_card hsub
  obtain ⟨is, is', rows, rows', s', s'', k1, k2, k3, k4, k5, k6, k7, k8, k9⟩ :=
    C46_next_partial s₂ g2 (by rw [g3]; exact hdm) v g5 (.int 1) (.int 1) 1 1 (Or.inr (.int 1))
      (Or.inr (.int 1)) hcard
  refine ⟨s₂, v, is, is', rows, rows', s', s'', g2, g5, hcard, k1, k2, k3, k4, k5, k7, ?_⟩
  obtain ⟨is₀, rows₀, s₀, e1, e2, -, -, -, -, e3⟩ := C45_best_partial s₂ g2 (by rw [g3]; exact hdm) v g5 (.int 1) 1
    (Or.inr (.int 1)) (by omega)
  rw [k1] at e1
  cases e1
  rw [← e3.length_eq, e2]

/-- The hypotheses of `C45_false` are met by a grid with one measurement whose error is 0. -/
theorem C45_false_witness : ∃ (s : Shallot ℝ) (row row' : Shallot.Solution ℝ) (s' : Shallot ℝ), Sound s ∧
    2 ≤ (unmasked s).card ∧
    Shallot.extractSolutions (.int 2) s = (.ok [row, row'], s') ∧ row'.rms = .nan ∧
      (row.dx = row'.dx ∧ row.dy = row'.dy) := by
  obtain ⟨s, s₁, g, k, hs, hr, hg, ho, hk, hdm, h1, hs₁, hgs, hdm₁, hgr, hdat, herr, hsc, h3, h4, h5⟩ :=
    throwAway_probe (-1) 0 0 le_rfl (by norm_num) le_rfl
  rw [zero_mul] at hsc h4
  have hs₂ := determineFit_sound true s₁ hs₁
  obtain ⟨data, hd⟩ : ∃ data, data = List.zipWith (fun (a x : XF ℝ) => a.add (Shallot.fitTerm (.fin 0) (.fin 0) x))
      (List.replicate 27 (.fin (0 : ℝ))) g.prop.data.data := ⟨_, rfl⟩
  have hloop : Shallot.fitLoop true [g] (List.replicate 27 (.fin 0)) = .ok data := by
    unfold Shallot.fitLoop Shallot.fitWeight Shallot.fitScaled
    rw [herr, hsc]
    show Shallot.fitLoop true [] (List.zipWith (fun (a x : XF ℝ) => a.add (Shallot.fitTerm ((XF.fin 0).mul (.fin 0))
      (.fin 0) x)) _ _) = _
    rw [XF.mul_fin, mul_zero, ← hd]
    rfl
  have hterm : ∀ v : ℝ, (XF.fin 0).add (Shallot.fitTerm (.fin 0) (.fin 0) (.fin v)) =
      if v = 0 then XF.nan else .pinf := by
    intro v
    unfold Shallot.fitTerm
    rw [XF.sub_fin, XF.mul_fin, sub_zero]
    by_cases hv : v = 0
    · simp [hv, XF.div, XF.infSign, XF.add]
    · have : 0 < v * v := mul_self_pos.2 hv
      simp [hv, XF.div, XF.infSign, this, XF.add]
  have hall : ∀ x ∈ data, x = .pinf ∨ x = .nan := by
    intro x hx
    rw [hd] at hx
    obtain ⟨i, hi⟩ := List.mem_iff_getElem?.1 hx
    rw [List.getElem?_zipWith] at hi
    obtain ⟨a, ha⟩ := Option.ne_none_iff_exists'.1 (show (List.replicate 27 (XF.fin (0 : ℝ)))[i]? ≠ none by
      intro h; rw [h] at hi; cases hi)
    · obtain ⟨b, hb⟩ := Option.ne_none_iff_exists'.1 (show g.prop.data.data[i]? ≠ none by
        intro h; rw [ha, h] at hi; cases hi)
      rw [ha, hb] at hi
      have ha0 : a = .fin 0 := List.eq_of_mem_replicate (List.mem_of_getElem? ha)
      have hbd : b ∈ (s.gradientCube (.fin (-(-1)))).data := by
        rw [← hdat]; exact List.mem_of_getElem? hb
      unfold Shallot.gradientCube cubeOf at hbd
      simp only [List.mem_flatMap, List.mem_map] at hbd
      obtain ⟨y, -, x', -, r, -, hbe⟩ := hbd
      have hx' : x = a.add (Shallot.fitTerm (.fin 0) (.fin 0) b) := (Option.some.inj hi).symm
      rcases diskGradient_fin (XF.fin (-(-1) : ℝ)) (s.params.dx.data.getD x' .nan)
        (s.params.dy.data.getD y .nan) (s.shear.at3 y x' 0) (s.fxMap.data.at3 y x' r)
        (s.fyMap.data.at3 y x' r) with h | ⟨v, h⟩
      · rw [h] at hbe
        right
        rw [hx', ← hbe]
        cases a <;> rfl
      · rw [h] at hbe
        rw [hx', ← hbe, ha0, hterm]
        by_cases hv : v = 0
        · exact Or.inr (if_pos hv)
        · exact Or.inl (if_neg hv)
  have hinf : ∀ i, i = 4 ∨ i = 22 → data[i]? = some .pinf ∧ i ∈ unmasked s₁ := by
    intro i hi
    obtain ⟨v, hv, hv0, hv1⟩ := h5 i hi
    refine ⟨?_, probe_unmasked hgs h3 h4 (by omega) hv hv0⟩
    rw [hd, List.getElem?_zipWith, hv, List.getElem?_replicate, if_pos (by omega)]
    simp only
    rw [hterm, if_neg (hv1 (by norm_num)).ne']
  rcases determineFit_cases true s₁ with ⟨h, -⟩ | ⟨gs, hgs', ⟨e, -, h⟩ | ⟨p, data', hd1, hd2, hd3, h⟩⟩
  · rw [hgr] at h; cases h
  · rw [hgr] at hgs'
    cases hgs'
    rw [hgs] at h
    have h := hloop.symm.trans h
    cases h
  · rw [hgr] at hgs'
    cases hgs'
    rw [hgs] at hd1
    have hd1 := hloop.symm.trans hd1
    cases hd1
    rw [h] at hs₂
    have hun : unmasked ({ s₁ with gradientFit := some p } : Shallot ℝ) = unmasked s₁ := by
      ext i
      rw [mem_unmasked, mem_unmasked]
      rfl
    have hpd : p.data.data = data := by rw [hd2]
    have hcard : 2 ≤ (unmasked ({ s₁ with gradientFit := some p } : Shallot ℝ)).card := by
      have hsub : ({4, 22} : Finset ℕ) ⊆ unmasked ({ s₁ with gradientFit := some p } : Shallot ℝ) := by
        intro i hi
        simp only [Finset.mem_insert, Finset.mem_singleton] at hi
        rw [hun]
        exact (hinf i hi).2
      exact Finset.card_le_card hsub
    obtain ⟨row, row', s', e1, e2, e3, -⟩ := C45_false _ hs₂ hdm₁ p rfl (by rw [hpd]; exact hall) 4 22
      (by rw [hun]; exact (hinf 4 (Or.inl rfl)).2) (by rw [hun]; exact (hinf 22 (Or.inr rfl)).2) (by norm_num)
      (by norm_num) (by rw [hpd]; exact (hinf 4 (Or.inl rfl)).1)
      (by rw [hpd]; exact (hinf 22 (Or.inr rfl)).1) (by
        rw [hd3]
        rintro ⟨m, ⟨⟩, hm⟩
        rw [List.getElem?_map, (hinf 4 (Or.inl rfl)).1] at hm
        cases hm)
    exact ⟨_, row, row', s', hs₂, hcard, e1, e2, e3⟩

/-- The hypotheses of `C74_point`, `C48_outside_partial` and `C48_false` are met by the same grid. -/
example : ∃ (s : Shallot ℝ) (pt : Shallot.Point ℝ) (s' : Shallot ℝ), Sound s ∧
    s.params.gridShape = (3, 3, 3) ∧
    Shallot.gridPoint (.int 1) (.int 0) (.npInt .w64 2) (.bool true) s = (.ok pt, s') ∧
    PointOf s true 1 0 2 pt ∧
    Shallot.gridPoint (.int 4) (.int 0) (.int 0) (.bool true) s = (.error .valueError, s) ∧
    (Shallot.gridPoint (.int 3) (.int 0) (.int 0) (.bool true) s).1 = .error .indexError := by
  obtain ⟨-, s, g, k, -, -, -, -, -, -, -, hs, hgs, hdm, -⟩ :=
    throwAway_probe 0 0 1 le_rfl (by norm_num) zero_le_one
  obtain ⟨pt, s', h1, -, -, h2⟩ := C74_point s hs hdm true 1 0 2 (.int 1) (.int 0) (.npInt .w64 2) (.int _)
    (.int _) (.np _ _) (by rw [hgs]; norm_num) (by rw [hgs]; norm_num) (by rw [hgs]; norm_num)
  refine ⟨s, pt, s', hs, hgs, h1, h2, ?_, ?_⟩
  · exact C48_outside_partial s _ _ _ _ 4 0 0 (.int _) (.int _) (.int _) (by rw [hgs]; norm_num)
  · exact C48_false s hs true _ _ _ 3 0 0 (.int _) (.int _) (.int _) (by rw [hgs]) (by rw [hgs]; norm_num)
      (by rw [hgs]; norm_num) (by rw [hgs]; simp)

end Beyonce
