import Verif.Props.Candidate
import Verif.Props.Covered

/-!
# C97: the solutions explain the eclipse

From the measurements to the solutions: what `extract_solutions` returns after `set_eclipse_parameters`,
`add_gradients` and `determine_gradient_fit`, in terms of disks, tangents and measurements alone.
-/

set_option linter.unusedSectionVars false

namespace Beyonce
open Spec Geometry Real

/-! ## What the solutions are compared with -/

/-- What a measurement adds to the fit of a disk: the disk has, where the star stands at the time of the
measurement, an edge with a tangent that is not vertical and is at least as steep as the slope of the light
curve asks for, and `z` is the squared difference of the two, over the squared error if weighted. -/
def Spec.Misfit (weighted : Bool) (duration velocity limb dx dy R I T : ℝ) (q : Measurement ℝ) (z : ℝ) :
    Prop :=
  ∃ τ σ ρ e w : ℝ, q.time = .fin τ ∧ q.slope = .fin σ ∧ q.transmission = .fin ρ ∧ q.error = .fin e ∧
    TangentTo dx dy R I T (-τ / duration) (.fin w) ∧ σ * orbitalFactor velocity limb / ρ ≤ w ∧
    z = (w - σ * orbitalFactor velocity limb / ρ) ^ 2 / (if weighted then e ^ 2 else 1)

/-- The disk explains all measurements, with the sum `z` of what they add. -/
def Spec.Explains (weighted : Bool) (duration velocity limb : ℝ) (qs : List (Measurement ℝ))
    (dx dy R I T z : ℝ) : Prop :=
  ∃ zs, List.Forall₂ (Misfit weighted duration velocity limb dx dy R I T) qs zs ∧ z = zs.sum

/-- The grid holds this disk at the point `(y, x, r)`. -/
def Spec.HoldsDisk (s : Shallot ℝ) (p : ℕ × ℕ × ℕ) (dx dy R I T : ℝ) : Prop :=
  p.1 < s.params.gridShape.1 ∧ p.2.1 < s.params.gridShape.2.1 ∧ p.2.2 < s.params.gridShape.2.2 ∧
    s.params.dx.data[p.2.1]? = some (.fin dx) ∧ s.params.dy.data[p.1]? = some (.fin dy) ∧
    s.diskRadius.data.at3 p.1 p.2.1 p.2.2 = .fin R ∧ s.inclination.data.at3 p.1 p.2.1 p.2.2 = .fin I ∧
    s.tilt.data.at3 p.1 p.2.1 p.2.2 = .fin T

/-- These are the best solutions: they belong to different grid points, each with the disk that the grid
holds there, which explains the measurements with the value reported, and from which rings can be made that
cover the star exactly during the eclipse; none is followed by a better one; there are as many as asked for;
and a disk of the grid that explains the measurements is among them, or, if a number was asked for, not
better than any of them. -/
def Spec.BestSolutions (s : Shallot ℝ) (weighted : Bool) (duration velocity limb : ℝ)
    (qs : List (Measurement ℝ)) (num : PyVal ℝ) (k : ℤ) (rows : List (Shallot.Solution ℝ)) : Prop :=
  ∃ ps : List (ℕ × ℕ × ℕ), ps.Nodup ∧
    List.Forall₂ (fun p (row : Shallot.Solution ℝ) => ∃ dx dy R I T z,
      row = ⟨.fin z, .fin R, .fin I, .fin T, .fin dx, .fin dy⟩ ∧ HoldsDisk s p dx dy R I T ∧
      Explains weighted duration velocity limb qs dx dy R I T z ∧
      DiskOfEclipse (.fin R) (.fin I) (.fin T) (.fin dx) (.fin dy)) ps rows ∧
    rows.Pairwise (fun a b => ¬ Less b.rms a.rms) ∧ (num ≠ .none → (rows.length : ℤ) = k) ∧
    ∀ p dx dy R I T z, HoldsDisk s p dx dy R I T →
      Explains weighted duration velocity limb qs dx dy R I T z →
      p ∈ ps ∨ (num ≠ .none ∧ ∀ row ∈ rows, ¬ Less (.fin z) row.rms)

/-! ## One gradient -/

/-- What a measurement with finite numbers leaves in its gradient. -/
theorem gradientOf_parts {K : Type} [Field K] [LinearOrder K] [IsStrictOrderedRing K] [FloorRing K]
    [RealFns K] (s : Shallot K) (d scale : PyVal K) (q : Measurement K) (m e t o : K)
    (hm : q.slope = .fin m) (he : q.error = .fin e) (ht : q.transmission = .fin t)
    (ht0 : t ≠ 0) (ho : scale.num = .fin o) (hok : (gradientOf s d scale q).1 = .ok ()) :
    (gradientOf s d scale q).2.scaled = .ok (some (.fin (|m| * (o * (1 / t))))) ∧
      (gradientOf s d scale q).2.prop.data = s.gradientCube (q.time.neg.div d.num) ∧
      (gradientOf s d scale q).2.error = some (.npFloat .w64 (.fin e)) := by
  obtain ⟨b, hb⟩ : ∃ b, b = blank s (q.time.neg.div d.num) := ⟨_, rfl⟩
  have hgo : gradientOf s d scale q = GGrad.determineMask (.npFloat .w64 (.fin |m|)) scale
      (.npFloat .w64 (.fin t)) (.npFloat .w64 (.fin e)) b := by
    rw [hb]; unfold gradientOf measure; rw [hm, he, ht]; rfl
  rw [hgo] at hok ⊢
  have e1 : ∀ x : XF K, orOne (.npFloat .w64 x : PyVal K) = .npFloat .w64 x := by intro x; simp [orOne]
  rcases determineMask_cases (.npFloat .w64 (.fin |m|)) scale (.npFloat .w64 (.fin t))
      (.npFloat .w64 (.fin e)) b with ⟨-, e', h'⟩ | ⟨-, -, e', h'⟩ | ⟨-, -, -, e', h'⟩ |
      ⟨-, -, -, -, e', h'⟩ | ⟨-, -, -, -, ⟨e', -, h'⟩ | ⟨k, hk1, hk2⟩⟩
  all_goals first | (rw [h'] at hok; cases hok) | skip
  rcases hk2 with ⟨-, h'⟩ | ⟨hlt, h'⟩
  · rw [h'] at hok; cases hok
  rw [h']
  have hst := scaled_stored b (.npFloat .w64 (.fin |m|)) scale (.npFloat .w64 (.fin t)) (.npFloat .w64 (.fin e))
  rw [hk1] at hst
  simp only at hst
  rw [hlt] at hst
  rw [e1] at hk1
  have hk3 : k = .fin (1 / t) := by
    have : k = (XF.fin 1).div (.fin t) := (Except.ok.inj hk1).symm
    rw [this, XF.div_fin _ _ ht0]
  subst hk3
  refine ⟨?_, ?_, ?_⟩
  · have h2 : (XF.fin |m|).mul (scale.num.mul (.fin (1 / t))) = .fin (|m| * (o * (1 / t))) := by
      rw [ho, XF.mul_fin, XF.mul_fin]
    rw [← h2]
    exact hst
  · rw [hb]; rfl
  · show some (orOne _) = _
    rw [e1]

theorem foldl_fin {K : Type} [Field K] [LinearOrder K] [IsStrictOrderedRing K] : ∀ (zs : List K) (a : K),
    (zs.map XF.fin).foldl XF.add (.fin a) = .fin (a + zs.sum)
  | [], a => by simp
  | z :: zs, a => by
    rw [List.map_cons, List.foldl_cons, XF.add_fin, foldl_fin zs, List.sum_cons, add_assoc]

theorem terms_misfits {P : Measurement ℝ → ℝ → Prop} {T : GGrad ℝ → XF ℝ → Prop} (G : Measurement ℝ → GGrad ℝ) :
    ∀ (qs : List (Measurement ℝ)) (ys : List (XF ℝ)), List.Forall₂ T (qs.map G) ys →
      (∀ q ∈ qs, ∀ y, T (G q) y → ∃ z, y = .fin z ∧ P q z) →
      ∃ zs, ys = zs.map XF.fin ∧ List.Forall₂ P qs zs
  | [], ys, h, _ => by cases h; exact ⟨[], rfl, .nil⟩
  | q :: qs, ys, h, hp => by
    rw [List.map_cons] at h
    cases h with
    | cons h1 h2 =>
      obtain ⟨z, rfl, hz⟩ := hp q (by simp) _ h1
      obtain ⟨zs, rfl, hzs⟩ := terms_misfits G qs _ h2 (fun q' hq' => hp q' (by simp [hq']))
      exact ⟨z :: zs, rfl, .cons hz hzs⟩

theorem forall₂_left {α β : Type} {P : α → β → Prop} {xs : List α} {ys : List β}
    (h : List.Forall₂ P xs ys) : ∀ x ∈ xs, ∃ y, P x y := by
  induction h with
  | nil => intro x hx; cases hx
  | cons h1 _ ih =>
    intro x hx
    rcases List.mem_cons.1 hx with rfl | hx
    · exact ⟨_, h1⟩
    · exact ih x hx

/-- The fit of a disk is unique. -/
theorem explains_unique {w : Bool} {D V U dx dy R I T z z' : ℝ} {qs : List (Measurement ℝ)} (hR : 0 < R)
    (hI : 0 ≤ I) (hI' : I < 90) (h : Explains w D V U qs dx dy R I T z)
    (h' : Explains w D V U qs dx dy R I T z') : z = z' := by
  obtain ⟨zs, h, rfl⟩ := h
  obtain ⟨zs', h', rfl⟩ := h'
  congr 1
  induction h generalizing zs' with
  | nil => cases h'; rfl
  | cons h1 _ ih =>
    cases h' with
    | cons h1' h2' =>
      obtain ⟨τ, σ, ρ, e, v, a1, a2, a3, a4, a5, -, rfl⟩ := h1
      obtain ⟨τ', σ', ρ', e', v', b1, b2, b3, b4, b5, -, rfl⟩ := h1'
      rw [a1] at b1
      rw [a2] at b2
      rw [a3] at b3
      rw [a4] at b4
      cases b1; cases b2; cases b3; cases b4
      cases tangentTo_unique hR hI hI' a5 b5
      rw [ih _ h2']

section
variable (minX maxX numX minY maxY numY maxRf numRf : PyVal ℝ) (g : GridParams ℝ)
    (hg : GridParams.new minX maxX numX minY maxY numY maxRf numRf = .ok g) (a b c d m : ℝ)
    (ha : IsNumber false minX (.fin a)) (hb : IsNumber false maxX (.fin b))
    (hc : IsNumber false minY (.fin c)) (hd : IsNumber false maxY (.fin d))
    (hm : IsNumber false maxRf (.fin m))
    (hext : g.extendable = true → 2 ≤ g.sliceShape.1 ∧ 2 ≤ g.sliceShape.2) (v k : PyVal ℝ)
    (s : Shallot ℝ) (g' : GridParams ℝ) (h : Shallot.new v k g = (.ok s, g'))
    (vD vV vU : PyVal ℝ) (D V U : ℝ) (nD : IsNumber false vD (.fin D))
    (nV : IsNumber false vV (.fin V)) (nU : IsNumber false vU (.fin U)) (hD : 0 < D) (hV : 0 < V)
    (s₁ : Shallot ℝ) (h₁ : Shallot.setEclipseParameters vD vV vU s = (.ok (), s₁))
    (bs : List (List (Measurement ℝ))) (hne : bs.flatten ≠ [])
    (hfin : ∀ q ∈ bs.flatten, ∃ τ σ ρ e : ℝ, q.time = .fin τ ∧ q.slope = .fin σ ∧
      q.transmission = .fin ρ ∧ 0 < ρ ∧ q.error = .fin e ∧ 0 < e)
    (s₂ : Shallot ℝ) (h₂ : addCalls bs s₁ = (.ok (), s₂)) (w : Bool)
include hg ha hb hc hd hm hext h nD nV nU hD hV h₁ hne hfin h₂

/-- The fit exists, and has at the grid points that are not masked the values of the disks that explain the
measurements; these points are those that hold such disks. -/
theorem fit_explains : ∃ s₃ f, Shallot.determineFit w s₂ = (.ok (), s₃) ∧ Sound s₃ ∧
    s₃.diagnosticMap ≠ none ∧ s₃.params = s.params ∧ s₃.diskRadius = s.diskRadius ∧
    s₃.inclination = s.inclination ∧ s₃.tilt = s.tilt ∧ FitIs s₃ f ∧
    ∀ y x r, y < s.params.gridShape.1 → x < s.params.gridShape.2.1 → r < s.params.gridShape.2.2 →
      (flat s y x r ∈ unmasked s₃ → ∃ dx dy R I T, HoldsDisk s (y, x, r) dx dy R I T ∧
        Explains w D V U bs.flatten dx dy R I T (f (flat s y x r))) ∧
      (∀ dx dy R I T z, HoldsDisk s (y, x, r) dx dy R I T → Explains w D V U bs.flatten dx dy R I T z →
        flat s y x r ∈ unmasked s₃) := by
  obtain ⟨keep, hk, hmade⟩ := made_new _ _ _ _ _ _ _ _ g g' hg hext v k s h
  obtain ⟨n, hn⟩ := hmade.count
  obtain ⟨⟨b', hfrom⟩, -⟩ := made_report _ _ _ _ _ _ _ _ g hg a b c d m ha hb hc hd hm hext v k n hn keep hk s
    g' h
  have hbs : bs ≠ [] := by rintro rfl; exact hne rfl
  obtain ⟨hA, hB⟩ := C49_partial s (fun _ => hmade.nothing.2) vD vV vU
  have hval : NotNegative vD ∧ NotNegative vV ∧ Fraction vU := by
    by_contra hno
    obtain ⟨e, s', he, -⟩ := hB hno
    rw [h₁] at he
    cases he
  obtain ⟨z, nz, z0, z1⟩ := hval.2.2
  obtain rfl := isNumber_unique nz nU
  have u0 : 0 ≤ U := by simpa [less_iff] using z0
  have u1 : U ≤ 1 := by simpa [less_iff] using z1
  have e₁ := hA hval
  rw [h₁] at e₁
  replace e₁ := (Prod.mk.inj e₁).2
  have hready : s₁.ready = true := by rw [e₁]; rfl
  have hsound₁ : Sound s₁ := by
    have := (setEclipse_sound vD vV vU s hmade.sound)
    rw [h₁] at this
    exact this
  have hsound₂ : Sound s₂ := by
    have := addCalls_sound bs s₁ hsound₁
    rw [h₂] at this
    exact this
  obtain ⟨d', scale, k1, k2, k3, k4⟩ := addCalls_ok bs s₁ s₂ hready hbs h₂
  have hd' : d' = vD := by
    have := k1.eq
    rw [e₁] at this
    exact (Option.some.inj this).symm
  subst hd'
  obtain ⟨scale', k5, k6⟩ := C60_grid s₁ vV vU V U (by rw [e₁]) (by rw [e₁]) nV nU hV u0 u1
  rw [k2] at k5
  cases k5
  have ho := isNumber_num k6
  have hgr : s₂.gradients = some (bs.flatten.map fun q => (gradientOf s₁ d' scale q).2) := by
    rw [k4, e₁]
    show some ((none : Option (List (GGrad ℝ))).getD [] ++ _) = _
    rfl
  obtain ⟨s₃, f, d1, d2, d3, d4⟩ := determineFit_finite w s₂ hsound₂ _ hgr (by
    intro g hg'
    obtain ⟨q, hq', rfl⟩ := List.mem_map.1 hg'
    obtain ⟨τ, σ, ρ, e, a1, a2, a3, a4, a5, a6⟩ := hfin q hq'
    exact gradientOf_saneGradient s₁ d' scale q σ e ρ _ a2 a5 a6.ne' a3 a4.ne' ho (k3 q hq').2 w)
  have hpar : s₃.params = s.params := by rw [d3, k4, e₁]
  refine ⟨s₃, f, d1, d2, ?_, hpar, by rw [d3, k4, e₁], by rw [d3, k4, e₁], by rw [d3, k4, e₁], d4,
    fun y x r hy hx hr => ?_⟩
  · rw [d3, k4, e₁]
    show s.diagnosticMap ≠ none
    rw [hfrom.map]; simp
  obtain ⟨mask, out, m1, hout, hiff, -⟩ := C95_partial _ _ _ _ _ _ _ _ g hg a b c d m ha hb hc hd hm hext v k s
    g' h d' vV vU D V U nD nV nU hD hV s₁ h₁ bs hbs (fun q hq => by
      obtain ⟨τ, σ, ρ, e, a1, a2, a3, a4, -⟩ := hfin q hq
      exact ⟨τ, σ, ρ, a1, a2, a3, a4⟩) s₂ h₂ y x r hy hx hr
  obtain ⟨mask', m1', m2', m3', m4'⟩ := C38_union s₂ hsound₂
  rw [m1] at m1'
  cases m1'
  have hmem : flat s y x r ∈ unmasked s₃ ↔ out = false := by
    have e1 : MaskedAt s₃ (flat s y x r) ↔ MaskedAt s₂ (flat s y x r) := by rw [d3]; rfl
    have e2 : out = false ↔ ¬ MaskedAt s₂ (flat s y x r) := by
      rw [← m4']
      unfold flat
      rw [hout]
      cases out <;> simp
    rw [mem_unmasked, e1, e2]
    have : flat s y x r < elements s₃ := by
      unfold elements flat
      rw [hpar]
      exact flat_lt hy hx hr
    simp [this]
  refine ⟨fun hi => ?_, fun dx dy R I T z hdisk hz => ?_⟩
  · have hall := hiff.1 (hmem.1 hi)
    -- the disk
    obtain ⟨q₀, hq₀⟩ := List.exists_mem_of_ne_nil _ hne
    obtain ⟨τ₀, σ₀, ρ₀, -, a1, a2, a3, -⟩ := hfin q₀ hq₀
    obtain ⟨dx, dy, R, I, T, -, i1, i2, i3, i4, i5, -⟩ := hall q₀ hq₀ τ₀ σ₀ ρ₀ a1 a2 a3
    obtain ⟨r1, r2, r3⟩ := disk_ranges _ _ _ _ _ _ _ _ g hg a b c d m ha hb hc hd hm hext v k s g' h y x r
      hy hx hr _ _ i3 i4
    refine ⟨dx, dy, R, I, T, ⟨hy, hx, hr, i1, i2, i3, i4, i5⟩, ?_⟩
    -- the value of the fit
    obtain ⟨p, p1, p2⟩ := d4
    obtain ⟨p2, -⟩ := p2 _ hi
    rcases determineFit_cases w s₂ with ⟨h', -⟩ | ⟨gs, hgs, ⟨e, h', -⟩ | ⟨p', data, hl, hp, -, h'⟩⟩
    · rw [hgr] at h'; cases h'
    · rw [d1] at h'; cases h'
    rw [hgr] at hgs
    cases hgs
    rw [d1] at h'
    have e3 := (Prod.mk.inj h').2
    rw [e3] at p1
    cases p1
    rw [hp] at p2
    obtain ⟨-, hys⟩ := fitLoop_spec w _ _ _ data List.length_replicate
      (fun g hgs => ((hsound₂.gradients _ hgr g hgs).data.2)) hl
    have hpar₂ : s₂.params = s.params := by rw [k4, e₁]
    obtain ⟨ys, y1, y2⟩ := hys (flat s y x r) (.fin 0) _ (by
      rw [List.getElem?_replicate, if_pos]
      rw [hpar₂]
      exact flat_lt hy hx hr) p2
    obtain ⟨zs, rfl, hzs⟩ := terms_misfits (P := Misfit w D V U dx dy R I T) _ _ _ y1 (by
      intro q hq y' hterm
      obtain ⟨τ, σ, ρ, e, b1, b2, b3, b4, b5, b6⟩ := hfin q hq
      obtain ⟨hpass, hok⟩ := k3 q hq
      have hσ : 0 ≤ σ := by
        have := hpass.slope
        rw [b2] at this
        simpa [less_iff] using this
      obtain ⟨g1, g2, g3⟩ := gradientOf_parts s₁ d' scale q σ e ρ _ b2 b5 b3 b4.ne' ho hok
      obtain ⟨dx', dy', R', I', T', ω, j1, j2, j3, j4, j5, j6, j7⟩ := hall q hq τ σ ρ b1 b2 b3
      rw [i1] at j1
      rw [i2] at j2
      rw [i3] at j3
      rw [i4] at j4
      rw [i5] at j5
      cases j1; cases j2; cases j3; cases j4; cases j5
      have hpos : q.time.neg.div d'.num = .fin (-τ / D) := by
        rw [b1, isNumber_num nD]
        exact XF.div_fin _ _ hD.ne'
      have hcube : s₁.gradientCube (.fin (-τ / D)) = s.gradientCube (.fin (-τ / D)) := by rw [e₁]; rfl
      have hat := cube_gradientAt _ _ _ _ _ _ _ _ g hg a b c d m ha hb hc hd hm hext v k s g' h
        (.fin (-τ / D)) y x r hy hx hr
      have hcub := gradientCube_cubic s (.fin (-τ / D))
      obtain ⟨m', e', v', t1, t2, t3, t4, rfl⟩ := hterm
      rw [g2, hpos, hcube] at t4
      unfold flat at t4
      rw [at3_get hcub.1, getD_of_get _ _ _ t4] at hat
      have hv' : v' = .fin ω := by
        obtain ⟨dx', dy', l1, l2, ⟨l3, -⟩ | ⟨l3, -⟩ | ⟨R', I', T', p', l3, l4, l5, l6, l7⟩⟩ := hat
        · rw [i3] at l3; cases l3
        · exact absurd rfl (l3 _)
        · rw [i1] at l1
          rw [i2] at l2
          rw [i3] at l3
          rw [i4] at l4
          rw [i5] at l5
          cases l1; cases l2; cases l3; cases l4; cases l5; cases l6
          exact tangentTo_unique r1 r2 r3 l7 j6
      subst hv'
      rw [g1] at t1
      cases t1
      have hthr : |σ| * (orbitalFactor V U * (1 / ρ)) = σ * orbitalFactor V U / ρ := by
        rw [abs_of_nonneg hσ]; ring
      rw [hthr]
      refine ⟨_, ?_, τ, σ, ρ, e, ω, b1, b2, b3, b5, j6, j7, rfl⟩
      cases w with
      | true =>
        obtain ⟨ev, t5, rfl⟩ := t2 rfl
        rw [g3] at t5
        cases t5
        show ((XF.sub (.fin ω) _).mul _).div ((XF.fin e).mul (.fin e)) = _
        rw [XF.sub_fin, XF.mul_fin, XF.mul_fin, XF.div_fin _ _ (mul_ne_zero b6.ne' b6.ne'), if_pos rfl, sq, sq]
      | false =>
        rw [t3 rfl, XF.sub_fin, XF.mul_fin, XF.div_fin _ _ one_ne_zero, if_neg (by simp), sq])
    rw [foldl_fin, zero_add] at y2
    exact ⟨zs, hzs, XF.fin.inj y2⟩
  · rw [hmem, hiff]
    intro q hq τ σ ρ b1 b2 b3
    obtain ⟨zs, hzs, -⟩ := hz
    obtain ⟨-, -, -, i1, i2, i3, i4, i5⟩ := hdisk
    obtain ⟨z', τ', σ', ρ', e', ω, c1, c2, c3, -, c5, c6, -⟩ := forall₂_left hzs q hq
    rw [b1] at c1
    rw [b2] at c2
    rw [b3] at c3
    cases c1; cases c2; cases c3
    exact ⟨dx, dy, R, I, T, ω, i1, i2, i3, i4, i5, c5, c6⟩

/-- **C97** A grid is built over finite coordinates, then `set_eclipse_parameters` is called, then
`add_gradients` any number of times, with finite numbers and at least one measurement.  If all succeed, so
does `determine_gradient_fit`, and `extract_solutions` then returns the best solutions; it raises exactly if
asked for a negative number of them or for more than there are disks in the grid that explain the
measurements. -/
theorem C97_solutions : ∃ s₃, Shallot.determineFit w s₂ = (.ok (), s₃) ∧
    ∀ (num : PyVal ℝ) (k : ℤ), num = .none ∨ PlainIndex num k →
      (∃ rows s₄, Shallot.extractSolutions num s₃ = (.ok rows, s₄) ∧
        BestSolutions s w D V U bs.flatten num k rows) ∨
      (num ≠ .none ∧ Shallot.extractSolutions num s₃ = (.error .valueError, s₃) ∧
        (k < 0 ∨ ∀ ps : List (ℕ × ℕ × ℕ), ps.Nodup → (∀ p ∈ ps, ∃ dx dy R I T z,
          HoldsDisk s p dx dy R I T ∧ Explains w D V U bs.flatten dx dy R I T z) →
          (ps.length : ℤ) < k)) := by
  obtain ⟨keep, hk, hmade⟩ := made_new _ _ _ _ _ _ _ _ g g' hg hext v k s h
  obtain ⟨n, hn⟩ := hmade.count
  obtain ⟨s₃, f, d1, d2, d3, d4, d5, d6, d7, d8, d9⟩ := fit_explains _ _ _ _ _ _ _ _ g hg a b c d m ha hb hc hd hm
    hext v k s g' h vD vV vU D V U nD nV nU hD hV s₁ h₁ bs hne hfin s₂ h₂ w
  refine ⟨s₃, d1, fun num k' hnum => ?_⟩
  have none_or : ∀ w, PlainIndex num w → num ≠ .none := by
    intro w hw
    cases hw <;> simp
  -- the number of solutions
  have hcount : (∃ kk : ℕ, AsksFor s₃ num kk ∧ kk ≤ (unmasked s₃).card ∧ (num ≠ .none → (kk : ℤ) = k') ∧
      (num = .none → kk = (unmasked s₃).card)) ∨
      (PlainIndex num k' ∧ (k' < 0 ∨ ((unmasked s₃).card : ℤ) < k')) := by
    rcases hnum with rfl | hp
    · exact Or.inl ⟨_, Or.inl ⟨rfl, rfl⟩, le_rfl, fun hh => absurd rfl hh, fun _ => rfl⟩
    · by_cases hno : k' < 0 ∨ ((unmasked s₃).card : ℤ) < k'
      · exact Or.inr ⟨hp, hno⟩
      · push Not at hno
        obtain ⟨kk, rfl⟩ := Int.eq_ofNat_of_zero_le hno.1
        exact Or.inl ⟨kk, Or.inr hp, by exact_mod_cast hno.2, fun _ => rfl, fun hh => absurd hh (none_or _ hp)⟩
  -- points and elements
  have hpoint : ∀ p dx dy R I T z, HoldsDisk s p dx dy R I T → Explains w D V U bs.flatten dx dy R I T z →
      flat s p.1 p.2.1 p.2.2 ∈ unmasked s₃ ∧ f (flat s p.1 p.2.1 p.2.2) = z := by
    rintro ⟨y, x, r⟩ dx dy R I T z hdisk hz
    have hdisk' := hdisk
    obtain ⟨hy, hx, hr, i1, i2, i3, i4, i5⟩ := hdisk
    have hi := (d9 y x r hy hx hr).2 dx dy R I T z hdisk' hz
    refine ⟨hi, ?_⟩
    obtain ⟨dx', dy', R', I', T', ⟨-, -, -, j1, j2, j3, j4, j5⟩, hf⟩ := (d9 y x r hy hx hr).1 hi
    rw [i1] at j1
    rw [i2] at j2
    rw [i3] at j3
    rw [i4] at j4
    rw [i5] at j5
    cases j1; cases j2; cases j3; cases j4; cases j5
    obtain ⟨r1, r2, r3⟩ := disk_ranges _ _ _ _ _ _ _ _ g hg a b c d m ha hb hc hd hm hext v k s g' h y x r
      hy hx hr _ _ i3 i4
    exact explains_unique r1 r2 r3 hf hz
  have hback : ∀ p dx dy R I T, HoldsDisk s p dx dy R I T →
      unravel s.params.gridShape.2.1 s.params.gridShape.2.2 (flat s p.1 p.2.1 p.2.2) = p := by
    rintro ⟨y, x, r⟩ dx dy R I T ⟨-, hx, hr, -⟩
    exact unravel_flat hx hr
  rcases hcount with ⟨kk, ask, hle, hk1, hk2⟩ | ⟨hp, hbad⟩
  · left
    obtain ⟨is, rows, s₄, x1, x2, x3, x4, x5, x6, x7⟩ := C45_best_partial s₃ d2 d3 f d8 num kk ask hle
    refine ⟨rows, s₄, x1, is.map (unravel s.params.gridShape.2.1 s.params.gridShape.2.2), ?_, ?_, ?_, ?_, ?_⟩
    · refine x3.map_on ?_
      intro i hi j hj hij
      have li := (mem_unmasked.1 (x4 i hi)).1
      have lj := (mem_unmasked.1 (x4 j hj)).1
      unfold elements at li lj
      rw [d4] at li lj
      rw [← (unravel_spec li).2.2.2, ← (unravel_spec lj).2.2.2, hij]
    · rw [List.forall₂_map_left_iff]
      have hboth : ∀ i ∈ is, ∀ row : Shallot.Solution ℝ, row.rms = XF.fin (f i) ∧ RowOf s₃ i row →
          ∃ dx dy R I T z, row = ⟨.fin z, .fin R, .fin I, .fin T, .fin dx, .fin dy⟩ ∧
            HoldsDisk s (unravel s.params.gridShape.2.1 s.params.gridShape.2.2 i) dx dy R I T ∧
            Explains w D V U bs.flatten dx dy R I T z ∧
            DiskOfEclipse (.fin R) (.fin I) (.fin T) (.fin dx) (.fin dy) := by
        rintro i hi row ⟨hrms, y, x, r, hy, hx, hr, hfl, q1, q2, q3, q4, q5⟩
        rw [d4] at hy hx hr q4 q5
        rw [d5] at q1
        rw [d6] at q2
        rw [d7] at q3
        have hfl' : flat s y x r = i := by
          rw [← hfl]
          unfold flat
          rw [d4]
        subst hfl'
        obtain ⟨dx, dy, R, I, T, hdisk, hex⟩ := (d9 y x r hy hx hr).1 (x4 _ hi)
        have hdisk' := hdisk
        obtain ⟨-, -, -, i1, i2, i3, i4, i5⟩ := hdisk
        have hval : ∀ (c : Cube) (p : GProp ℝ) (u w : XF ℝ), s.prop c = some p →
            p.data.data[flat s y x r]? = some u → p.data.at3 y x r = w → u = w := by
          intro c p u w hp h1 h2
          have hsh := (hmade.sound.props c p hp).data.1
          rw [at3_get hsh] at h2
          unfold flat at h1
          rw [getD_of_get _ _ _ h1] at h2
          exact h2
        have v1 := hval .diskRadius _ _ _ rfl q1 i3
        have v2 := hval .inclination _ _ _ rfl q2 i4
        have v3 := hval .tilt _ _ _ rfl q3 i5
        rw [show s.params.dx.data[x]? = _ from i1] at q4
        rw [show s.params.dy.data[y]? = _ from i2] at q5
        refine ⟨dx, dy, R, I, T, _, ?_, ?_, hex, ?_⟩
        · obtain ⟨_, _, _, _, _, _⟩ := row
          simp only at hrms v1 v2 v3 q4 q5
          rw [hrms, v1, v2, v3, ← Option.some.inj q4, ← Option.some.inj q5]
        · have : unravel s.params.gridShape.2.1 s.params.gridShape.2.2 (flat s y x r) = (y, x, r) :=
            unravel_flat hx hr
          rw [this]
          exact hdisk'
        · refine reported_disk (t := s) (y := y) (x := x) (r := r)
            ⟨hy, hx, hr, Or.inr ⟨_, rfl, i3.symm⟩, Or.inr ⟨_, rfl, i4.symm⟩, Or.inr ⟨_, rfl, i5.symm⟩, i1, i2⟩
            (C75_grid _ _ _ _ _ _ _ _ g hg a b c d m ha hb hc hd hm hext v k n hn keep hk s g'
              h y x r hy hx hr) (by simp) (by simp) (by simp)
      clear x1 x2 x3 x4 x5 x6 hk1 hk2 ask
      induction x7 with
      | nil => exact .nil
      | cons h1 _ ih =>
        exact .cons (hboth _ (by simp) _ h1) (ih (fun i hi => hboth i (by simp [hi])))
    · clear x1 x2 x3 x4 x6 hk1 hk2 ask
      induction x7 with
      | nil => exact .nil
      | @cons i row is rows h1 hrest ih =>
        rw [List.pairwise_cons] at x5 ⊢
        refine ⟨fun row' hrow' => ?_, ih x5.2⟩
        obtain ⟨j, hj, hj'⟩ : ∃ j ∈ is, row'.rms = .fin (f j) := by
          clear ih x5
          induction hrest with
          | nil => cases hrow'
          | cons h2 _ ih =>
            rcases List.mem_cons.1 hrow' with rfl | hrow'
            · exact ⟨_, by simp, h2.1⟩
            · obtain ⟨j, hj, hj'⟩ := ih hrow'
              exact ⟨j, by simp [hj], hj'⟩
        rw [h1.1, hj', less_fin_iff, not_lt]
        rcases x5.1 j hj with hlt | ⟨heq, -⟩
        · exact hlt.le
        · exact heq.le
    · intro hno
      rw [← x7.length_eq, x2]
      exact hk1 hno
    · intro p dx dy R I T z hdisk hz
      obtain ⟨hi, hfi⟩ := hpoint p dx dy R I T z hdisk hz
      by_cases hin : flat s p.1 p.2.1 p.2.2 ∈ is
      · left
        rw [List.mem_map]
        exact ⟨_, hin, hback p dx dy R I T hdisk⟩
      · right
        refine ⟨?_, ?_⟩
        · intro hnone
          have hsub : is.toFinset ⊆ unmasked s₃ := fun i hi => x4 i (List.mem_toFinset.1 hi)
          have hcard : (unmasked s₃).card ≤ is.toFinset.card := by
            rw [List.toFinset_card_of_nodup x3, x2, hk2 hnone]
          have := Finset.eq_of_subset_of_card_le hsub hcard
          rw [← this, List.mem_toFinset] at hi
          exact hin hi
        · intro row hrow
          obtain ⟨j, hj, hj'⟩ : ∃ j ∈ is, row.rms = .fin (f j) := by
            clear x1 x2 x3 x4 x5 x6 hk1 hk2 ask hin
            induction x7 with
            | nil => cases hrow
            | cons h2 _ ih =>
              rcases List.mem_cons.1 hrow with rfl | hrow
              · exact ⟨_, by simp, h2.1⟩
              · obtain ⟨j, hj, hj'⟩ := ih hrow
                exact ⟨j, by simp [hj], hj'⟩
          rw [hj', less_fin_iff, not_lt, ← hfi]
          rcases x6 j hj _ hi hin with hlt | ⟨heq, -⟩
          · exact hlt.le
          · exact heq.le
  · right
    refine ⟨none_or _ hp, C45_count s₃ d2 num k' hp hbad, ?_⟩
    rcases hbad with hbad | hbad
    · exact Or.inl hbad
    · right
      intro ps hnd hps
      refine lt_of_le_of_lt ?_ hbad
      rw [Nat.cast_le]
      have hinj : (ps.map fun p => flat s p.1 p.2.1 p.2.2).Nodup := by
        refine hnd.map_on ?_
        intro p hp' p' hp'' he
        obtain ⟨dx, dy, R, I, T, z, hdisk, -⟩ := hps p hp'
        obtain ⟨dx', dy', R', I', T', z', hdisk', -⟩ := hps p' hp''
        rw [← hback p dx dy R I T hdisk, ← hback p' dx' dy' R' I' T' hdisk', he]
      have hsub : (ps.map fun p => flat s p.1 p.2.1 p.2.2).toFinset ⊆ unmasked s₃ := by
        intro i hi
        rw [List.mem_toFinset, List.mem_map] at hi
        obtain ⟨p, hp', rfl⟩ := hi
        obtain ⟨dx, dy, R, I, T, z, hdisk, hz⟩ := hps p hp'
        exact (hpoint p dx dy R I T z hdisk hz).1
      have := Finset.card_le_card hsub
      rwa [List.toFinset_card_of_nodup hinj, List.length_map] at this

end

/-- A grid and a measurement that meet the hypotheses of `C97_solutions`: one solution can be asked for, and
it is the best disk. -/
theorem throwAway_solution : ∃ s s₁ s₂ s₃ : Shallot ℝ, ∃ row : Shallot.Solution ℝ, ∃ s₄ : Shallot ℝ,
    Shallot.new (.int 100) (.bool false) throwAway = (.ok s, s.params) ∧
    Shallot.setEclipseParameters (.int 1) (.int 1) (.int 0) s = (.ok (), s₁) ∧
    addCalls [[probe (1 / 4) 0 1]] s₁ = (.ok (), s₂) ∧
    Shallot.determineFit true s₂ = (.ok (), s₃) ∧
    Shallot.extractSolutions (.int 1) s₃ = (.ok [row], s₄) ∧
    BestSolutions s true 1 1 0 [probe (1 / 4) 0 1] (.int 1) 1 [row] := by
  obtain ⟨s, s₁, s₂, h, h₁, h₂, hgs, -, -, -, mask, c1, c2, -⟩ := throwAway_candidates
  have n1 : IsNumber false (.int 1 : PyVal ℝ) (.fin 1) := Or.inl ⟨1, .int 1, by simp⟩
  have n0 : IsNumber false (.int 0 : PyVal ℝ) (.fin 0) := Or.inl ⟨0, .int 0, by simp⟩
  have n2 : IsNumber false (.int 2 : PyVal ℝ) (.fin 2) := Or.inl ⟨2, .int 2, by simp⟩
  have hext : throwAway.extendable = true → 2 ≤ throwAway.sliceShape.1 ∧ 2 ≤ throwAway.sliceShape.2 :=
    fun _ => ⟨le_rfl, le_rfl⟩
  have hfin : ∀ q ∈ [[probe (1 / 4) 0 1]].flatten, ∃ τ σ ρ e : ℝ, q.time = .fin τ ∧ q.slope = .fin σ ∧
      q.transmission = .fin ρ ∧ 0 < ρ ∧ q.error = .fin e ∧ 0 < e := by
    intro q hq
    simp only [List.flatten_cons, List.flatten_nil, List.append_nil, List.mem_singleton] at hq
    subst hq
    exact ⟨_, _, _, _, rfl, rfl, rfl, one_pos, rfl, one_pos⟩
  obtain ⟨s₃, h₃, hall⟩ := C97_solutions _ _ _ _ _ _ _ _ throwAway throwAway_new 0 1 0 1 2 n0 n1 n0 n1 n2 hext _ _
    s _ h (.int 1) (.int 1) (.int 0) 1 1 0 n1 n1 n0 one_pos one_pos s₁ h₁ _ (by simp) hfin s₂ h₂ true
  obtain ⟨mask', out, m1, hout, hiff, -⟩ := C95_partial _ _ _ _ _ _ _ _ throwAway throwAway_new 0 1 0 1 2 n0 n1 n0
    n1 n2 hext _ _ s _ h (.int 1) (.int 1) (.int 0) 1 1 0 n1 n1 n0 one_pos one_pos s₁ h₁ _ (by simp)
    (fun q hq => by
      obtain ⟨τ, σ, ρ, e, a1, a2, a3, a4, -⟩ := hfin q hq
      exact ⟨τ, σ, ρ, a1, a2, a3, a4⟩) s₂ h₂ 2 1 1
    (by rw [hgs]; norm_num) (by rw [hgs]; norm_num) (by rw [hgs]; norm_num)
  rw [c1] at m1
  cases m1
  rw [hgs] at hout
  simp only [Nat.reduceMul, Nat.reduceAdd] at hout
  rw [c2] at hout
  obtain ⟨dx, dy, R, I, T, ω, i1, i2, i3, i4, i5, i6, i7⟩ := hiff.1 (Option.some.inj hout).symm
    (probe (1 / 4) 0 1) (by simp) _ _ _ rfl rfl rfl
  have hdisk : HoldsDisk s (2, 1, 1) dx dy R I T :=
    ⟨by rw [hgs]; norm_num, by rw [hgs]; norm_num, by rw [hgs]; norm_num, i1, i2, i3, i4, i5⟩
  have hex : ∃ z, Explains true 1 1 0 [[probe (1 / 4) 0 1]].flatten dx dy R I T z :=
    ⟨_, _, .cons ⟨_, _, _, _, ω, rfl, rfl, rfl, rfl, i6, i7, rfl⟩ .nil, rfl⟩
  obtain ⟨z, hz⟩ := hex
  rcases hall (.int 1) 1 (Or.inr (.int 1)) with ⟨rows, s₄, x1, x2⟩ | ⟨-, -, hbad⟩
  · obtain ⟨row, rfl⟩ : ∃ row, rows = [row] := by
      obtain ⟨-, -, -, -, hlen, -⟩ := x2
      have := hlen (by simp)
      exact List.length_eq_one_iff.1 (by exact_mod_cast this)
    exact ⟨s, s₁, s₂, s₃, row, s₄, h, h₁, h₂, h₃, x1, x2⟩
  · exfalso
    rcases hbad with hbad | hbad
    · norm_num at hbad
    · have := hbad [(2, 1, 1)] (by simp) (by
        intro p hp
        rw [List.mem_singleton.1 hp]
        exact ⟨dx, dy, R, I, T, z, hdisk, hz⟩)
      simp at this

end Beyonce
