import Verif.Props.Tangent

/-!
# C95: which disks remain candidates, and C60 for grids

From the measurements to the combined mask: with `set_eclipse_parameters` and `add_gradients`, a disk
remains a candidate exactly if its edge is steep enough for every measurement.
-/

set_option linter.unusedSectionVars false

namespace Beyonce
open Spec Geometry Real

/-! ## The tangent is unique -/

theorem tangentTo_unique {dx dy a i t p : ℝ} {v w : XF ℝ} (ha : 0 < a) (hi0 : 0 ≤ i) (hi : i < 90)
    (hv : TangentTo dx dy a i t p v) (hw : TangentTo dx dy a i t p w) : v = w := by
  have hb : 0 < a * cos (rad i) := mul_pos ha (cos_deg_pos hi0 hi)
  obtain ⟨b, hbe⟩ : ∃ b, b = a * cos (rad i) := ⟨_, rfl⟩
  obtain ⟨τ, hτ⟩ : ∃ τ, τ = rad t := ⟨_, rfl⟩
  unfold TangentTo at hv hw
  simp only [← hbe, ← hτ] at hv hw
  rw [← hbe] at hb
  have e := sin_sq_add_cos_sq τ
  -- the coordinates along the axes of the ellipse
  have coords : ∀ l φ : ℝ, p = dx + l * (tilted a b τ φ).1 → 0 = dy + l * (tilted a b τ φ).2 →
      l * cos φ = ((p - dx) * cos τ - dy * sin τ) / a ∧ l * sin φ = (-dy * cos τ - (p - dx) * sin τ) / b := by
    intro l φ h1 h2
    unfold tilted at h1 h2
    simp only at h1 h2
    constructor
    · rw [eq_div_iff ha.ne']
      linear_combination -cos τ * h1 - sin τ * h2 - l * a * cos φ * e
    · rw [eq_div_iff hb.ne']
      linear_combination sin τ * h1 - cos τ * h2 - l * b * sin φ * e
  have away : ∀ l φ : ℝ, 0 < l → p = dx → dy = 0 → p = dx + l * (tilted a b τ φ).1 →
      0 = dy + l * (tilted a b τ φ).2 → False := by
    intro l φ hl h1 h2 h3 h4
    obtain ⟨k1, k2⟩ := coords l φ h3 h4
    rw [h1, h2] at k1 k2
    have c0 : cos φ = 0 := (mul_eq_zero.1 (k1.trans (by simp))).resolve_left hl.ne'
    have s0 : sin φ = 0 := (mul_eq_zero.1 (k2.trans (by simp))).resolve_left hl.ne'
    have := sin_sq_add_cos_sq φ
    rw [c0, s0] at this
    norm_num at this
  rcases hv with ⟨h1, h2, h3⟩ | ⟨l, φ, tx, ty, hl, h1, h2, h3, h4, h5, h6⟩
  · rcases hw with ⟨-, -, h3'⟩ | ⟨l', φ', tx', ty', hl', h1', h2', -⟩
    · rw [h3, h3']
    · exact (away l' φ' hl' h1 h2 h1' h2').elim
  · rcases hw with ⟨h1', h2', -⟩ | ⟨l', φ', tx', ty', hl', h1', h2', h3', h4', h5', h6'⟩
    · exact (away l φ hl h1' h2' h1 h2).elim
    · obtain ⟨k1, k2⟩ := coords l φ h1 h2
      obtain ⟨k1', k2'⟩ := coords l' φ' h1' h2'
      have ec : l * cos φ = l' * cos φ' := k1.trans k1'.symm
      have es : l * sin φ = l' * sin φ' := k2.trans k2'.symm
      obtain ⟨d1, d2⟩ := tilted_deriv a b τ φ
      obtain ⟨d1', d2'⟩ := tilted_deriv a b τ φ'
      have etx : tx = tx' := by
        rw [h3.unique ((d1.const_mul l).const_add dx), h3'.unique ((d1'.const_mul l').const_add dx)]
        linear_combination -a * cos τ * es - b * sin τ * ec
      have ety : ty = ty' := by
        rw [h4.unique ((d2.const_mul l).const_add dy), h4'.unique ((d2'.const_mul l').const_add dy)]
        linear_combination -a * sin τ * es + b * cos τ * ec
      subst etx ety
      by_cases h0 : tx = 0
      · rw [h5 h0, h5' h0]
      · rw [h6 h0, h6' h0]

/-! ## C60: the scale that the methods use -/

/-- The factor between the slope of the light curve and that of the edge of the disk. -/
noncomputable def Spec.orbitalFactor (velocity limb : ℝ) : ℝ :=
  (6 - 2 * limb) / (12 - 12 * limb + 3 * π * limb) * (π / velocity)

theorem isNumber_numeric {v : PyVal ℝ} {x : XF ℝ} (h : IsNumber false v x) :
    Shallot.isNumeric v = true := by
  rcases h with ⟨n, h, -⟩ | ⟨-, h⟩ <;> cases h <;> rfl

/-- **C60, for grids** With a positive velocity and a limb darkening from 0 to 1 the scale of the grid is
exactly the factor. -/
theorem C60_grid (s : Shallot ℝ) (vv vu : PyVal ℝ) (v u : ℝ) (hv : s.velocity = some vv)
    (hu : s.limb = some vu) (nv : IsNumber false vv (.fin v)) (nu : IsNumber false vu (.fin u))
    (v0 : 0 < v) (u0 : 0 ≤ u) (u1 : u ≤ 1) :
    ∃ scale, s.orbital = .ok scale ∧ IsNumber false scale (.fin (orbitalFactor v u)) := by
  have hden : 0 < 12 - 12 * u + 3 * π * u := by
    nlinarith [pi_gt_three]
  have e1 : Shallot.limbDenominator (XF.fin u) = .fin (12 - 12 * u + 3 * π * u) := by
    unfold Shallot.limbDenominator
    simp only [XF.mul_fin, XF.sub_fin, XF.add_fin, XF.pi_eq]
  have e2 : orbitalScale (.fin u) (.fin v) = .fin (orbitalFactor v u) := by
    unfold orbitalScale orbitalFactor
    simp only [XF.mul_fin, XF.sub_fin, XF.add_fin, XF.pi_eq]
    rw [XF.div_fin _ _ hden.ne', XF.div_fin _ _ v0.ne', XF.mul_fin]
  unfold Shallot.orbital
  simp only [hv, hu, Shallot.operand, needNumber, ok_bind, isNumber_numeric nv, isNumber_numeric nu, if_true,
    isNumber_num nv, isNumber_num nu, e1, e2, XF.eqb, hden.ne', v0.ne', decide_false, Bool.and_false,
    Bool.false_eq_true, if_false]
  split_ifs
  · exact ⟨_, rfl, Or.inr ⟨rfl, .float _⟩⟩
  · exact ⟨_, rfl, Or.inr ⟨rfl, .npFloat _ _⟩⟩

/-! ## C95 -/

/-- The disk that the grid holds at `(y, x, r)` has, where the star stands at the time `τ`, an edge at
least as steep as the slope `σ` of the light curve asks for: the tangent of the edge makes with the
x axis an angle whose |sin| is at least the slope times the orbital factor over the transmission. -/
def Spec.SteepEnough (s : Shallot ℝ) (y x r : ℕ) (duration velocity limb τ σ ρ : ℝ) : Prop :=
  ∃ dx dy a i t w : ℝ, s.params.dx.data[x]? = some (.fin dx) ∧ s.params.dy.data[y]? = some (.fin dy) ∧
    s.diskRadius.data.at3 y x r = .fin a ∧ s.inclination.data.at3 y x r = .fin i ∧
    s.tilt.data.at3 y x r = .fin t ∧ TangentTo dx dy a i t (-τ / duration) (.fin w) ∧
    σ * orbitalFactor velocity limb / ρ ≤ w

section
variable (minX maxX numX minY maxY numY maxRf numRf : PyVal ℝ) (g : GridParams ℝ)
    (hg : GridParams.new minX maxX numX minY maxY numY maxRf numRf = .ok g) (a b c d m : ℝ)
    (ha : IsNumber false minX (.fin a)) (hb : IsNumber false maxX (.fin b))
    (hc : IsNumber false minY (.fin c)) (hd : IsNumber false maxY (.fin d))
    (hm : IsNumber false maxRf (.fin m))
    (hext : g.extendable = true → 2 ≤ g.sliceShape.1 ∧ 2 ≤ g.sliceShape.2) (v k : PyVal ℝ)
    (s : Shallot ℝ) (g' : GridParams ℝ) (h : Shallot.new v k g = (.ok s, g'))
include hg ha hb hc hd hm hext h

/-- The disks of the grid have a positive radius and are not seen edge on. -/
theorem disk_ranges (y x r : ℕ) (hy : y < s.params.gridShape.1) (hx : x < s.params.gridShape.2.1)
    (hr : r < s.params.gridShape.2.2) (R I : ℝ) (hR : s.diskRadius.data.at3 y x r = .fin R)
    (hI : s.inclination.data.at3 y x r = .fin I) : 0 < R ∧ 0 ≤ I ∧ I < 90 := by
  obtain ⟨keep, hk, hmade⟩ := made_new _ _ _ _ _ _ _ _ g g' hg hext v k s h
  obtain ⟨n, hn⟩ := hmade.count
  obtain ⟨dx, dy, e1, e2, hl⟩ := C75_grid _ _ _ _ _ _ _ _ g hg a b c d m ha hb hc hd hm hext v k n hn keep hk
    s g' h y x r hy hx hr
  rcases hl with ⟨h1, -⟩ | ⟨fx, fy, a, i, t, -, -, h3, h4, -, -, -, -, h8, h9, h10, -⟩
  · rw [hR] at h1; cases h1
  · rw [hR] at h3
    rw [hI] at h4
    cases h3
    cases h4
    exact ⟨h8, h9, h10⟩

/-- **C95, as far as it is true** A grid is built over finite coordinates, then `set_eclipse_parameters`
is called, then `add_gradients` any number of times, with finite numbers.  If all succeed, a grid point
is not left out by the combined mask exactly if it holds a disk and for every measurement the tangent of
its edge is not vertical and steep enough. -/
theorem C95_partial (vD vV vU : PyVal ℝ) (D V U : ℝ) (nD : IsNumber false vD (.fin D))
    (nV : IsNumber false vV (.fin V)) (nU : IsNumber false vU (.fin U)) (hD : 0 < D) (hV : 0 < V)
    (s₁ : Shallot ℝ) (h₁ : Shallot.setEclipseParameters vD vV vU s = (.ok (), s₁))
    (bs : List (List (Measurement ℝ))) (hne : bs ≠ [])
    (hfin : ∀ q ∈ bs.flatten, ∃ τ σ ρ : ℝ, q.time = .fin τ ∧ q.slope = .fin σ ∧
      q.transmission = .fin ρ ∧ 0 < ρ)
    (s₂ : Shallot ℝ) (h₂ : addCalls bs s₁ = (.ok (), s₂)) (y x r : ℕ) (hy : y < s.params.gridShape.1)
    (hx : x < s.params.gridShape.2.1) (hr : r < s.params.gridShape.2.2) :
    ∃ mask out, s₂.combinedMask = .ok mask ∧
      mask.data[(y * s.params.gridShape.2.1 + x) * s.params.gridShape.2.2 + r]? = some out ∧
      (out = false ↔
        ∀ q ∈ bs.flatten, ∀ τ σ ρ : ℝ, q.time = .fin τ → q.slope = .fin σ → q.transmission = .fin ρ →
          SteepEnough s y x r D V U τ σ ρ) ∧
      ∀ q ∈ bs.flatten, ∀ σ ρ : ℝ, q.slope = .fin σ → q.transmission = .fin ρ →
        σ * orbitalFactor V U / ρ ≤ 1 := by
  obtain ⟨keep, hk, hmade⟩ := made_new _ _ _ _ _ _ _ _ g g' hg hext v k s h
  obtain ⟨n, hn⟩ := hmade.count
  obtain ⟨⟨b', hfrom⟩, -⟩ := made_report _ _ _ _ _ _ _ _ g hg a b c d m ha hb hc hd hm hext v k n hn keep hk s
    g' h
  obtain ⟨hA, hB⟩ := C49_partial s (fun _ => hmade.nothing.2) vD vV vU
  have hval : NotNegative vD ∧ NotNegative vV ∧ Fraction vU := by
    by_contra hno
    obtain ⟨e, s', he, -⟩ := hB hno
    rw [h₁] at he
    cases he
  obtain ⟨z, nz, z0, z1⟩ := hval.2.2
  obtain rfl := isNumber_unique nz nU
  have u0 : 0 ≤ U := by simpa [less_iff] using z0
  have u1 : U ≤ 1 := by simpa [less_iff] using z1
  have e₁ := hA hval
  rw [h₁] at e₁
  replace e₁ := (Prod.mk.inj e₁).2
  have hready : s₁.ready = true := by rw [e₁]; rfl
  have hsound₁ : Sound s₁ := by
    have := (setEclipse_sound vD vV vU s hmade.sound)
    rw [h₁] at this
    exact this
  have hsound₂ : Sound s₂ := by
    have := addCalls_sound bs s₁ hsound₁
    rw [h₂] at this
    exact this
  obtain ⟨d', scale, k1, k2, k3, k4⟩ := addCalls_ok bs s₁ s₂ hready hne h₂
  have hd' : d' = vD := by
    have := k1.eq
    rw [e₁] at this
    exact (Option.some.inj this).symm
  subst hd'
  obtain ⟨scale', k5, k6⟩ := C60_grid s₁ vV vU V U (by rw [e₁]) (by rw [e₁]) nV nU hV u0 u1
  rw [k2] at k5
  cases k5
  -- what one measurement marks
  have one : ∀ q ∈ bs.flatten, ∀ τ σ ρ : ℝ, q.time = .fin τ → q.slope = .fin σ →
      q.transmission = .fin ρ → σ * orbitalFactor V U / ρ ≤ 1 ∧
      (Marked (gradientOf s₁ d' scale q).2.prop.mask
        ((y * s.params.gridShape.2.1 + x) * s.params.gridShape.2.2 + r) ↔
          ¬ SteepEnough s y x r D V U τ σ ρ) := by
    intro q hq τ σ ρ ht hs hp
    obtain ⟨hpass, hok⟩ := k3 q hq
    have hσ : 0 ≤ σ := by
      have := hpass.slope
      rw [hs] at this
      simpa [less_iff] using this
    have hρ : 0 < ρ := by
      obtain ⟨τ', σ', ρ', -, -, l3, l4⟩ := hfin q hq
      rw [hp] at l3
      cases l3
      exact l4
    have hblank : gradientOf s₁ d' scale q = GGrad.determineMask (.npFloat .w64 (.fin σ)) scale
        (.npFloat .w64 (.fin ρ)) (.npFloat .w64 q.error) (blank s (.fin (-τ / D))) := by
      unfold gradientOf measure
      rw [blank_congr (s := s) (by rw [e₁]) (by rw [e₁]) (by rw [e₁]) (by rw [e₁]), ht, hs, hp,
        isNumber_num nD, XF.abs_fin, abs_of_nonneg hσ]
      show GGrad.determineMask _ _ _ _ (blank s ((XF.fin τ).neg.div (.fin D))) = _
      have : (XF.fin τ).neg.div (.fin D) = .fin (-τ / D) := XF.div_fin _ _ hD.ne'
      rw [this]
    obtain ⟨m₂, o₂, t₂, -, a1, a2, a3, -, -, -, -, -, -, -, -, -, -, -, -, mask, c1, c2, c3⟩ :=
      C34_determine_mask _ _ _ _ _ (gradientOf s₁ d' scale q).2 (by
        rw [← hblank]
        exact Prod.ext hok rfl)
    obtain rfl := isNumber_unique a1 (Or.inr ⟨rfl, .npFloat _ _⟩)
    obtain rfl := isNumber_unique a2 k6
    rw [givenOr_iff] at a3
    have e3 : orOne (.npFloat .w64 (.fin ρ) : PyVal ℝ) = .npFloat .w64 (.fin ρ) := by simp [orOne]
    rw [e3] at a3
    obtain rfl := isNumber_unique a3 (Or.inr ⟨rfl, .npFloat _ _⟩)
    rcases c3 with ⟨m', o', t', ⟨f1, f2, f3, -⟩, hle, hlen, hmask⟩ | ⟨hno, -⟩
    swap
    · exact absurd ⟨_, _, _, rfl, rfl, rfl, hρ⟩ hno
    cases f1
    cases f2
    cases f3
    refine ⟨hle, ?_⟩
    have hcub := gradientCube_cubic s (.fin (-τ / D))
    obtain ⟨val, hv⟩ : ∃ val, (s.gradientCube (.fin (-τ / D))).data[(y * s.params.gridShape.2.1 + x) *
        s.params.gridShape.2.2 + r]? = some val :=
      ⟨_, List.getElem?_eq_getElem (by rw [hcub.2]; exact flat_lt hy hx hr)⟩
    have hat := cube_gradientAt _ _ _ _ _ _ _ _ g hg a b c d m ha hb hc hd hm hext v k s g' h
      (.fin (-τ / D)) y x r hy hx hr
    rw [at3_get hcub.1, getD_of_get _ _ _ hv] at hat
    have hmark : Marked (gradientOf s₁ d' scale q).2.prop.mask
        ((y * s.params.gridShape.2.1 + x) * s.params.gridShape.2.2 + r) ↔
        val = .nan ∨ Less val (.fin (σ * orbitalFactor V U / ρ)) := by
      rw [← hmask _ val hv]
      constructor
      · rintro ⟨w, w1, w2⟩
        rw [c1] at w1
        cases w1
        exact w2
      · exact fun w => ⟨_, c1, w⟩
    rw [hmark]
    obtain ⟨dx, dy, g1, g2, hcase⟩ := hat
    constructor
    · rintro hbad ⟨dx', dy', R, I, T, w, i1, i2, i3, i4, i5, i6, i7⟩
      rw [g1] at i1
      rw [g2] at i2
      cases i1
      cases i2
      rcases hcase with ⟨j1, -⟩ | ⟨j1, -⟩ | ⟨R', I', T', p, j1, j2, j3, j4, j5⟩
      · rw [i3] at j1; cases j1
      · exact j1 _ rfl
      · rw [i3] at j1
        rw [i4] at j2
        rw [i5] at j3
        cases j1
        cases j2
        cases j3
        cases j4
        obtain ⟨q1, q2, q3⟩ := disk_ranges _ _ _ _ _ _ _ _ g hg a b c d m ha hb hc hd hm hext v k s g' h y x r
          hy hx hr _ _ i3 i4
        obtain rfl := tangentTo_unique q1 q2 q3 j5 i6
        rcases hbad with hb | hb
        · cases hb
        · rw [less_iff] at hb
          exact absurd (by simpa using hb) (not_lt.2 i7)
    · intro hno
      by_contra hgood
      push Not at hgood
      apply hno
      rcases hcase with ⟨-, j1⟩ | ⟨j1, -⟩ | ⟨R', I', T', p, j1, j2, j3, j4, j5⟩
      · exact absurd j1 hgood.1
      · exact absurd rfl (j1 _)
      · cases j4
        have hfinv : ∃ w : ℝ, val = .fin w := by
          rcases j5 with ⟨-, -, j⟩ | ⟨l, φ, tx, ty, -, -, -, -, -, j6, j7⟩
          · exact absurd j hgood.1
          · by_cases h0 : tx = 0
            · exact absurd (j6 h0) hgood.1
            · exact ⟨_, j7 h0⟩
        obtain ⟨w, rfl⟩ := hfinv
        refine ⟨dx, dy, R', I', T', w, g1, g2, j1, j2, j3, j5, ?_⟩
        have := hgood.2
        rw [less_iff] at this
        simpa using this
  obtain ⟨mask, m1, m2, m3, m4⟩ := C38_union s₂ hsound₂
  have hpar : s₂.params = s.params := by rw [k4, e₁]
  rw [hpar] at m3
  obtain ⟨out, hout⟩ : ∃ out, mask.data[(y * s.params.gridShape.2.1 + x) *
      s.params.gridShape.2.2 + r]? = some out :=
    ⟨_, List.getElem?_eq_getElem (by rw [m3]; exact flat_lt hy hx hr)⟩
  refine ⟨mask, out, m1, hout, ?_, fun q hq σ ρ hs hp => ?_⟩
  swap
  · obtain ⟨τ, -, -, ht, -⟩ := hfin q hq
    exact (one q hq τ σ ρ ht hs hp).1
  have hnot : out = false ↔
      ¬ MaskedAt s₂ ((y * s.params.gridShape.2.1 + x) * s.params.gridShape.2.2 + r) := by
    rw [← m4, hout]
    cases out <;> simp
  rw [hnot]
  have hmarks : MaskedAt s₂ ((y * s.params.gridShape.2.1 + x) * s.params.gridShape.2.2 + r) ↔
      ∃ q ∈ bs.flatten, Marked (gradientOf s₁ d' scale q).2.prop.mask
        ((y * s.params.gridShape.2.1 + x) * s.params.gridShape.2.2 + r) := by
    unfold MaskedAt
    rw [k4, e₁]
    simp only [hfrom.masks.1, hfrom.masks.2.1, hfrom.masks.2.2.1, Option.getD_none, List.nil_append,
      Option.some.injEq, exists_eq_left', List.mem_map]
    constructor
    · rintro (⟨_, hh, -⟩ | ⟨_, hh, -⟩ | ⟨_, hh, -⟩ | ⟨_, ⟨q, hq, rfl⟩, hh⟩)
      · cases hh
      · cases hh
      · cases hh
      · exact ⟨q, hq, hh⟩
    · rintro ⟨q, hq, hh⟩
      exact Or.inr (Or.inr (Or.inr ⟨_, ⟨q, hq, rfl⟩, hh⟩))
  rw [hmarks]
  constructor
  · intro hno q hq τ σ ρ ht hs hp
    by_contra hbad
    exact hno ⟨q, hq, (one q hq τ σ ρ ht hs hp).2.2 hbad⟩
  · rintro hall ⟨q, hq, hmk⟩
    obtain ⟨τ, σ, ρ, ht, hs, hp, -⟩ := hfin q hq
    exact (one q hq τ σ ρ ht hs hp).2.1 hmk (hall q hq τ σ ρ ht hs hp)

/-- **C95 is false of the code** A disk whose tangent is vertical where the star stands at one of the
times is left out, though there is no steeper edge and every slope that `add_gradients` accepts asks for at
most this steepness, which is 1. -/
theorem C95_false (vD vV vU : PyVal ℝ) (D V U : ℝ) (nD : IsNumber false vD (.fin D))
    (nV : IsNumber false vV (.fin V)) (nU : IsNumber false vU (.fin U)) (hD : 0 < D) (hV : 0 < V)
    (s₁ : Shallot ℝ) (h₁ : Shallot.setEclipseParameters vD vV vU s = (.ok (), s₁))
    (bs : List (List (Measurement ℝ))) (hne : bs ≠ [])
    (hfin : ∀ q ∈ bs.flatten, ∃ τ σ ρ : ℝ, q.time = .fin τ ∧ q.slope = .fin σ ∧
      q.transmission = .fin ρ ∧ 0 < ρ)
    (s₂ : Shallot ℝ) (h₂ : addCalls bs s₁ = (.ok (), s₂)) (y x r : ℕ) (hy : y < s.params.gridShape.1)
    (hx : x < s.params.gridShape.2.1) (hr : r < s.params.gridShape.2.2) (dx dy R I T : ℝ)
    (edx : s.params.dx.data[x]? = some (.fin dx)) (edy : s.params.dy.data[y]? = some (.fin dy))
    (eR : s.diskRadius.data.at3 y x r = .fin R) (eI : s.inclination.data.at3 y x r = .fin I)
    (eT : s.tilt.data.at3 y x r = .fin T) (q : Measurement ℝ) (hq : q ∈ bs.flatten) (τ : ℝ)
    (eτ : q.time = .fin τ) (l φ ty : ℝ) (hl : 0 < l)
    (px : -τ / D = dx + l * (tilted R (R * cos (rad I)) (rad T) φ).1)
    (py : 0 = dy + l * (tilted R (R * cos (rad I)) (rad T) φ).2)
    (tx : HasDerivAt (fun θ => dx + l * (tilted R (R * cos (rad I)) (rad T) θ).1) 0 φ)
    (hty : HasDerivAt (fun θ => dy + l * (tilted R (R * cos (rad I)) (rad T) θ).2) ty φ) :
    ty ≠ 0 ∧ (∀ p ∈ bs.flatten, ∀ σ ρ : ℝ, p.slope = .fin σ → p.transmission = .fin ρ →
        σ * orbitalFactor V U / ρ ≤ |ty| / √(0 ^ 2 + ty ^ 2)) ∧
      ∃ mask, s₂.combinedMask = .ok mask ∧
        mask.data[(y * s.params.gridShape.2.1 + x) * s.params.gridShape.2.2 + r]? = some true := by
  obtain ⟨q1, q2, q3⟩ := disk_ranges _ _ _ _ _ _ _ _ g hg a b c d m ha hb hc hd hm hext v k s g' h y x r
    hy hx hr _ _ eR eI
  obtain ⟨mask, out, m1, hout, m2, m3⟩ := C95_partial _ _ _ _ _ _ _ _ g hg a b c d m ha hb hc hd hm hext v k s g' h vD vV vU
    D V U nD nV nU hD hV s₁ h₁ bs hne hfin s₂ h₂ y x r hy hx hr
  have hb' : 0 < R * cos (rad I) := mul_pos q1 (cos_deg_pos q2 q3)
  have ty0 : ty ≠ 0 := by
    rintro rfl
    obtain ⟨d1, d2⟩ := tilted_deriv R (R * cos (rad I)) (rad T) φ
    have e1 := tx.unique ((d1.const_mul l).const_add dx)
    have e2 := hty.unique ((d2.const_mul l).const_add dy)
    have e := sin_sq_add_cos_sq (rad T)
    have c1 : l * R * sin φ = 0 := by linear_combination cos (rad T) * e1 + sin (rad T) * e2 - l * R * sin φ * e
    have c2 : l * (R * cos (rad I)) * cos φ = 0 := by
      linear_combination sin (rad T) * e1 - cos (rad T) * e2 - l * (R * cos (rad I)) * cos φ * e
    have s0 : sin φ = 0 := (mul_eq_zero.1 c1).resolve_left (by positivity)
    have s1 : cos φ = 0 := (mul_eq_zero.1 c2).resolve_left (by positivity)
    have := sin_sq_add_cos_sq φ
    rw [s0, s1] at this
    norm_num at this
  refine ⟨ty0, fun p hp σ ρ e1 e2 => ?_, mask, m1, ?_⟩
  · have : |ty| / √(0 ^ 2 + ty ^ 2) = 1 := by
      rw [zero_pow two_ne_zero, zero_add, sqrt_sq_eq_abs, div_self (abs_ne_zero.2 ty0)]
    rw [this]
    exact m3 p hp σ ρ e1 e2
  · obtain ⟨τ', σ, ρ, f1, f2, f3, -⟩ := hfin q hq
    rw [eτ] at f1
    cases f1
    have hno : ¬ SteepEnough s y x r D V U τ σ ρ := by
      rintro ⟨dx', dy', R', I', T', w, i1, i2, i3, i4, i5, i6, -⟩
      rw [edx] at i1
      rw [edy] at i2
      rw [eR] at i3
      rw [eI] at i4
      rw [eT] at i5
      cases i1; cases i2; cases i3; cases i4; cases i5
      have := tangentTo_unique q1 q2 q3 i6 (w := .nan)
        (Or.inr ⟨l, φ, 0, ty, hl, px, py, tx, hty, fun _ => rfl, fun hh => absurd rfl hh⟩)
      cases this
    cases out with
    | false => exact absurd (m2.1 rfl q hq τ σ ρ eτ f2 f3) hno
    | true => exact hout

/-- **C95 is false of the code, at the star** The disks around the centre of the star path are such disks:
if the grid has a point at (0, 0), no disk there remains a candidate once there is a measurement at a time
other than 0, and their edges are vertical. -/
theorem C95_false_centre (vD vV vU : PyVal ℝ) (D V U : ℝ) (nD : IsNumber false vD (.fin D))
    (nV : IsNumber false vV (.fin V)) (nU : IsNumber false vU (.fin U)) (hD : 0 < D) (hV : 0 < V)
    (s₁ : Shallot ℝ) (h₁ : Shallot.setEclipseParameters vD vV vU s = (.ok (), s₁))
    (bs : List (List (Measurement ℝ))) (hne : bs ≠ [])
    (hfin : ∀ q ∈ bs.flatten, ∃ τ σ ρ : ℝ, q.time = .fin τ ∧ q.slope = .fin σ ∧
      q.transmission = .fin ρ ∧ 0 < ρ)
    (s₂ : Shallot ℝ) (h₂ : addCalls bs s₁ = (.ok (), s₂)) (y x r : ℕ) (hy : y < s.params.gridShape.1)
    (hx : x < s.params.gridShape.2.1) (hr : r < s.params.gridShape.2.2)
    (edx : s.params.dx.data[x]? = some (.fin 0)) (edy : s.params.dy.data[y]? = some (.fin 0)) (R I T : ℝ)
    (eR : s.diskRadius.data.at3 y x r = .fin R) (eI : s.inclination.data.at3 y x r = .fin I)
    (eT : s.tilt.data.at3 y x r = .fin T) (q : Measurement ℝ) (hq : q ∈ bs.flatten) (τ : ℝ)
    (eτ : q.time = .fin τ) (hτ : τ ≠ 0) :
    (∃ l φ ty : ℝ, 0 < l ∧ -τ / D = 0 + l * (tilted R (R * cos (rad I)) (rad T) φ).1 ∧
      0 = 0 + l * (tilted R (R * cos (rad I)) (rad T) φ).2 ∧
      HasDerivAt (fun θ => 0 + l * (tilted R (R * cos (rad I)) (rad T) θ).1) 0 φ ∧
      HasDerivAt (fun θ => 0 + l * (tilted R (R * cos (rad I)) (rad T) θ).2) ty φ ∧ ty ≠ 0 ∧
      ∀ p ∈ bs.flatten, ∀ σ ρ : ℝ, p.slope = .fin σ → p.transmission = .fin ρ →
        σ * orbitalFactor V U / ρ ≤ |ty| / √(0 ^ 2 + ty ^ 2)) ∧
      ∃ mask, s₂.combinedMask = .ok mask ∧
        mask.data[(y * s.params.gridShape.2.1 + x) * s.params.gridShape.2.2 + r]? = some true := by
  obtain ⟨keep, hk, hmade⟩ := made_new _ _ _ _ _ _ _ _ g g' hg hext v k s h
  obtain ⟨n, hn⟩ := hmade.count
  obtain ⟨⟨b', hfrom⟩, -⟩ := made_report _ _ _ _ _ _ _ _ g hg a b c d m ha hb hc hd hm hext v k n hn keep hk s
    g' h
  have hat := cube_gradientAt _ _ _ _ _ _ _ _ g hg a b c d m ha hb hc hd hm hext v k s g' h
    (.fin (-τ / D)) y x r hy hx hr
  obtain ⟨dx, dy, e1, e2, hl⟩ := C75_grid _ _ _ _ _ _ _ _ g hg a b c d m ha hb hc hd hm hext v k n hn keep hk
    s g' h y x r hy hx hr
  have hnan : (s.gradientCube (.fin (-τ / D))).at3 y x r = .nan := by
    unfold Shallot.gradientCube
    rw [at3_cubeOf _ _ _ _ hy hx hr, hfrom.shear y x hy hx, getD_of_get _ _ _ edx, getD_of_get _ _ _ edy]
    rcases hl with ⟨h1, -⟩ | ⟨fx, fy, -, -, -, h1, h2, -⟩
    · rw [eR] at h1; cases h1
    · rw [h1, h2, shear_ok 0 0 (Or.inr rfl)]
      unfold diskGradient
      simp [shearOf, XF.sq, XF.neg, XF.sub, XF.eqb, XF.mul, XF.add, XF.arctan2, XF.sin, XF.abs]
  rw [hnan] at hat
  obtain ⟨dx', dy', g1, g2, hcase⟩ := hat
  rw [edx] at g1
  rw [edy] at g2
  cases g1
  cases g2
  rcases hcase with ⟨j1, -⟩ | ⟨j1, -⟩ | ⟨R', I', T', p, j1, j2, j3, j4, j5⟩
  · rw [eR] at j1; cases j1
  · exact absurd rfl (j1 _)
  rw [eR] at j1
  rw [eI] at j2
  rw [eT] at j3
  cases j1; cases j2; cases j3; cases j4
  rcases j5 with ⟨j, -⟩ | ⟨l, φ, tx, ty, l0, px, py, htx, hty, -, hfinite⟩
  · exact absurd j (div_ne_zero (neg_ne_zero.2 hτ) hD.ne')
  have tx0 : tx = 0 := by
    by_contra hh
    cases hfinite hh
  subst tx0
  obtain ⟨c1, c2, c3⟩ := C95_false _ _ _ _ _ _ _ _ g hg a b c d m ha hb hc hd hm hext v k s g' h vD vV vU
    D V U nD nV nU hD hV s₁ h₁ bs hne hfin s₂ h₂ y x r hy hx hr 0 0 R I T edx edy eR eI eT q hq τ eτ l φ ty l0
    px py htx hty
  exact ⟨⟨l, φ, ty, l0, px, py, htx, hty, c1, c2⟩, c3⟩

end

/-- A grid and a measurement that meet the hypotheses of `C95_partial` and `C95_false_centre`: a disk above
the star remains a candidate; the disk around the star, with its vertical edge, does not, though the slope
is 0. -/
theorem throwAway_candidates : ∃ s s₁ s₂ : Shallot ℝ,
    Shallot.new (.int 100) (.bool false) throwAway = (.ok s, s.params) ∧
    Shallot.setEclipseParameters (.int 1) (.int 1) (.int 0) s = (.ok (), s₁) ∧
    addCalls [[probe (1 / 4) 0 1]] s₁ = (.ok (), s₂) ∧ s.params.gridShape = (3, 3, 3) ∧
    s.params.dx.data[1]? = some (.fin 0) ∧ s.params.dy.data[1]? = some (.fin 0) ∧
    (∃ R I T : ℝ, s.diskRadius.data.at3 1 1 1 = .fin R ∧ s.inclination.data.at3 1 1 1 = .fin I ∧
      s.tilt.data.at3 1 1 1 = .fin T) ∧
    ∃ mask, s₂.combinedMask = .ok mask ∧ mask.data[22]? = some false ∧ mask.data[13]? = some true := by
  obtain ⟨s, s₁, h1, h2, h3, h4, hgs, hs, hgs₁, hr, hd, ⟨k, hk, hk2, ho⟩, -, hg, -, -, hv⟩ := throwAway_axis_from
  obtain ⟨s', d, h1', hfrom⟩ := throwAway_grid
  rw [h1] at h1'
  cases h1'
  have hext : throwAway.extendable = true → 2 ≤ throwAway.sliceShape.1 ∧ 2 ≤ throwAway.sliceShape.2 :=
    fun _ => ⟨le_rfl, le_rfl⟩
  have hf : FiniteGrid throwAway := finiteGrid_new _ _ _ _ _ _ _ _ _ throwAway_new 0 1 0 1
    (Or.inl ⟨0, .int 0, by simp⟩) (Or.inl ⟨1, .int 1, by simp⟩) (Or.inl ⟨0, .int 0, by simp⟩)
    (Or.inl ⟨1, .int 1, by simp⟩)
  have hl : linspace (.fin 0) (.fin 1) 2 = [XF.fin (0 : ℝ), .fin 1] := two_points 0 1 one_pos
  have hex : (builtGrid throwAway (.int 100) d).params.extendable = true := by
    show throwAway.extendable = true
    simp [throwAway, gridOf, hl, XF.eqb]
  have first : ∀ w : ℝ, ([XF.fin 0, .fin 1] : List (XF ℝ))[0]? = some (.fin w) → w = 0 := by
    intro w hw
    simpa using hw.symm
  have hx1 : s.params.dx.data[1]? = some (.fin 0) := by
    obtain ⟨w, h3, h4, -⟩ := (hfrom.vectorX hex).values 0 (by show 0 < 2; norm_num)
    rw [first w (by rw [← hl]; exact h3)] at h4
    exact h4
  have hy1 : s.params.dy.data[1]? = some (.fin 0) := by
    obtain ⟨w, h3, h4, -⟩ := (hfrom.vectorY hex).values 0 (by show 0 < 2; norm_num)
    rw [first w (by rw [← hl]; exact h3)] at h4
    exact h4
  obtain ⟨hA, -⟩ := C49_partial s (fun _ => hfrom.nothing.2.1) (.int 1) (.int 1) (.int 0)
  have he := hA ⟨⟨_, int_isNumber 1, by rw [less_iff]; simp⟩, ⟨_, int_isNumber 1, by rw [less_iff]; simp⟩,
    ⟨_, int_isNumber 0, by rw [less_iff]; simp, by rw [less_iff]; simp⟩⟩
  have hset : Shallot.setEclipseParameters (.int 1) (.int 1) (.int 0) s = (.ok (), s₁) := by
    rw [he, h2]
    show _ = (_, (Shallot.setEclipseParameters (.int 1) (.int 1) (.int 0) s).2)
    rw [he]
  obtain ⟨hp, q, hq1, -⟩ := probe_ok s₁ k (1 / 4) 0 1 hk hk2 (by norm_num) (by norm_num) (by norm_num)
  obtain ⟨s₂, hadd⟩ := addCalls_of [[probe (1 / 4) 0 1]] s₁ hr _ _ hd ho (by
    intro q' hq
    simp only [List.flatten_cons, List.flatten_nil, List.append_nil, List.mem_singleton] at hq
    subst hq
    rw [hq1]
    exact ⟨hp, rfl⟩)
  have hfin : ∀ q ∈ [[probe (1 / 4) 0 1]].flatten, ∃ τ σ ρ : ℝ, q.time = .fin τ ∧ q.slope = .fin σ ∧
      q.transmission = .fin ρ ∧ 0 < ρ := by
    intro q hq
    simp only [List.flatten_cons, List.flatten_nil, List.append_nil, List.mem_singleton] at hq
    subst hq
    exact ⟨_, _, _, rfl, rfl, rfl, one_pos⟩
  have n1 : IsNumber false (.int 1 : PyVal ℝ) (.fin 1) := Or.inl ⟨1, .int 1, by simp⟩
  have n0 : IsNumber false (.int 0 : PyVal ℝ) (.fin 0) := Or.inl ⟨0, .int 0, by simp⟩
  have hdisk : ∃ R I T : ℝ, s.diskRadius.data.at3 1 1 1 = .fin R ∧ s.inclination.data.at3 1 1 1 = .fin I ∧
      s.tilt.data.at3 1 1 1 = .fin T := by
    obtain ⟨fx, fy, -, -, ea, eb⟩ := complete_scales throwAway
      (shapedGrid_new _ _ _ _ _ _ _ _ _ throwAway_new) hf (.int 100) 100 count_hundred
      (fun y x hy hx => throwAway_buildable y x (by rwa [throwAway_length.2.1] at hy) (by
        rwa [throwAway_length.1] at hx)) d s hfrom 1 1 (by rw [hgs]; norm_num) (by rw [hgs]; norm_num) 0 0
      (getD_of_get _ _ _ hx1) (getD_of_get _ _ _ hy1) (Or.inr rfl)
    rw [throwAway_length.2.2] at ea eb
    obtain ⟨dx, dy, -, -, ⟨-, -, -, e | e⟩ | ⟨_, _, R, I, T, -, -, e1, e2, e3, -⟩⟩ := C75_grid _ _ _ _ _ _ _ _
      throwAway throwAway_new 0 1 0 1 2 n0 n1 n0 n1 (Or.inl ⟨2, .int 2, by simp⟩) hext (.int 100) (.bool false) 100
      count_hundred false rfl s _ h1 1 1 1 (by rw [hgs]; norm_num) (by rw [hgs]; norm_num)
      (by rw [hgs]; norm_num)
    · rw [ea] at e; cases e
    · rw [eb] at e; cases e
    · exact ⟨R, I, T, e1, e2, e3⟩
  obtain ⟨R, I, T, e1, e2, e3⟩ := hdisk
  obtain ⟨-, mask, m1, m2⟩ := C95_false_centre _ _ _ _ _ _ _ _ throwAway throwAway_new 0 1 0 1 2 n0 n1 n0 n1
    (Or.inl ⟨2, .int 2, by simp⟩) hext _ _ s _ h1 (.int 1) (.int 1) (.int 0) 1 1 0 n1 n1 n0 one_pos one_pos s₁
    hset _ (by simp) hfin s₂ hadd 1 1 1 (by rw [hgs]; norm_num) (by rw [hgs]; norm_num)
    (by rw [hgs]; norm_num) hx1 hy1 R I T e1 e2 e3 (probe (1 / 4) 0 1) (by simp) (1 / 4) rfl (by norm_num)
  obtain ⟨mask', out, m1', hout, hiff, -⟩ := C95_partial _ _ _ _ _ _ _ _ throwAway throwAway_new 0 1 0 1 2 n0 n1 n0
    n1 (Or.inl ⟨2, .int 2, by simp⟩) hext _ _ s _ h1 (.int 1) (.int 1) (.int 0) 1 1 0 n1 n1 n0 one_pos one_pos s₁
    hset _ (by simp) hfin s₂ hadd 2 1 1 (by rw [hgs]; norm_num) (by rw [hgs]; norm_num)
    (by rw [hgs]; norm_num)
  rw [m1] at m1'
  cases m1'
  rw [hgs] at m2 hout
  have hout' : out = false := by
    refine hiff.2 ?_
    intro q hq τ σ ρ t1 t2 t3
    simp only [List.flatten_cons, List.flatten_nil, List.append_nil, List.mem_singleton] at hq
    subst hq
    cases t1
    cases t2
    cases t3
    obtain ⟨w, w1, w2, -⟩ := hv 22 (Or.inr rfl) (-(1 / 4) / 1)
    have hcube : s₁.gradientCube (.fin (-(1 / 4) / 1)) = s.gradientCube (.fin (-(1 / 4) / 1)) := by
      rw [he] at hset
      rw [← (Prod.mk.inj hset).2]
      rfl
    rw [hcube] at w1
    have hat := cube_gradientAt _ _ _ _ _ _ _ _ throwAway throwAway_new 0 1 0 1 2 n0 n1 n0
      n1 (Or.inl ⟨2, .int 2, by simp⟩) hext _ _ s _ h1 (.fin (-(1 / 4) / 1)) 2 1 1 (by rw [hgs]; norm_num)
      (by rw [hgs]; norm_num) (by rw [hgs]; norm_num)
    rw [at3_get (gradientCube_cubic s _).1, hgs] at hat
    have hval : (s.gradientCube (.fin (-(1 / 4) / 1))).data.getD ((2 * ((3, 3, 3) : ℕ × ℕ × ℕ).2.1 + 1) *
        ((3, 3, 3) : ℕ × ℕ × ℕ).2.2 + 1) .nan = .fin w := getD_of_get _ _ _ w1
    rw [hval] at hat
    obtain ⟨dx, dy, f1, f2, ⟨-, hh⟩ | ⟨-, hh⟩ | ⟨a, i, t, p, f3, f4, f5, hh, f6⟩⟩ := hat
    · cases hh
    · cases hh
    · cases hh
      exact ⟨dx, dy, a, i, t, w, f1, f2, f3, f4, f5, f6, by simpa using w2⟩
  subst hout'
  exact ⟨s, s₁, s₂, h1, hset, hadd, hgs, hx1, hy1, ⟨R, I, T, e1, e2, e3⟩, mask, m1, hout, m2⟩

end Beyonce
