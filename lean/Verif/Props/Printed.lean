import Verif.Props.Candidate
import Verif.Props.GridReport

/-!
# C96: a grid prints every gradient with what was measured
-/

set_option linter.unusedSectionVars false

namespace Beyonce
open Spec Geometry

section
variable {K : Type} [Field K] [LinearOrder K] [IsStrictOrderedRing K]

theorem gradientReports_get : ∀ (l : List (GGrad K)) (rs : List (GradReport K)),
    Shallot.gradientReports l = .ok rs → rs.length = l.length ∧
      ∀ (j : ℕ) (g : GGrad K), l[j]? = some g → ∃ r, rs[j]? = some r ∧ g.report = .ok r
  | [], rs, h => by
    unfold Shallot.gradientReports at h
    cases h
    exact ⟨rfl, fun j g hj => by simp at hj⟩
  | a :: l, rs, h => by
    unfold Shallot.gradientReports at h
    cases h1 : a.report with
    | error e => rw [h1, error_bind] at h; cases h
    | ok r =>
    rw [h1, ok_bind] at h
    cases h2 : Shallot.gradientReports l with
    | error e => rw [h2, error_bind] at h; cases h
    | ok rs' =>
    rw [h2, ok_bind] at h
    cases h
    obtain ⟨i1, i2⟩ := gradientReports_get l rs' h2
    refine ⟨by simp [i1], fun j g hj => ?_⟩
    cases j with
    | zero =>
      cases hj
      exact ⟨r, rfl, h1⟩
    | succ j =>
      exact i2 j g hj

theorem gradient_report_parts {g : GGrad K} {r : GradReport K} (h : g.report = .ok r) :
    g.prop.report = .ok r.prop ∧ r.position = g.position.num ∧
      ((g.prop.mask = none ∧ r.measured = none) ∨
        ∃ m e o t, g.measured = some m ∧ g.error = some e ∧ g.orbital = some o ∧ g.transmission = some t ∧
          g.prop.mask ≠ none ∧ r.measured = some ⟨m.num, e.num, o.num, t.num⟩) := by
  unfold GGrad.report at h
  cases h1 : g.prop.report with
  | error e => rw [h1, error_bind] at h; cases h
  | ok p =>
  rw [h1, ok_bind] at h
  cases h2 : g.measuredReport with
  | error e => rw [h2, error_bind] at h; cases h
  | ok q =>
  rw [h2, ok_bind] at h
  cases h
  refine ⟨rfl, rfl, ?_⟩
  unfold GGrad.measuredReport at h2
  cases hm : g.prop.mask with
  | none =>
    rw [hm] at h2
    cases h2
    exact Or.inl ⟨rfl, rfl⟩
  | some m =>
    rw [hm] at h2
    right
    cases e1 : g.measured with
    | none => simp [e1, shown, bind, Except.bind] at h2
    | some a =>
    cases e2 : g.error with
    | none => simp [e1, e2, shown, bind, Except.bind] at h2
    | some b =>
    cases e3 : g.orbital with
    | none => simp [e1, e2, e3, shown, bind, Except.bind] at h2
    | some c =>
    cases e4 : g.transmission with
    | none => simp [e1, e2, e3, e4, shown, bind, Except.bind] at h2
    | some d =>
      simp only [e1, e2, e3, e4, shown, ok_bind, Except.ok.injEq] at h2
      exact ⟨a, b, c, d, rfl, rfl, rfl, rfl, by simp, h2.symm⟩

/-- What a grid prints is what each of its parts prints: title and unit of the three properties tell
which they are, and there is one entry for each gradient, in their order. -/
structure Spec.PrintedParts (s : Shallot K) (r : GridReport K) : Prop where
  diskRadius : s.diskRadius.report = .ok r.diskRadius ∧ r.diskRadius.title = "Disk Radius" ∧
    r.diskRadius.unit = "$t_{ecl}$"
  tilt : s.tilt.report = .ok r.tilt ∧ r.tilt.title = "Tilt" ∧ r.tilt.unit = "$^o$"
  inclination : s.inclination.report = .ok r.inclination ∧ r.inclination.title = "Inclination" ∧
    r.inclination.unit = "$^o$"
  count : r.gradients.length = (s.gradients.getD []).length
  gradients : ∀ (j : ℕ) (g : GGrad K), (s.gradients.getD [])[j]? = some g →
    ∃ e, r.gradients[j]? = some e ∧ g.prop.report = .ok e.prop ∧ e.position = g.position.num ∧
      (e.measured = none ↔ g.prop.mask = none) ∧
      ∀ w, e.measured = some w → ∃ m er o t, g.measured = some m ∧ g.error = some er ∧
        g.orbital = some o ∧ g.transmission = some t ∧ w.gradient = m.num ∧ w.error = er.num ∧
        w.orbital = o.num ∧ w.transmission = t.num

theorem report_titles (p : GProp K) (r : PropReport K) (h : p.report = .ok r) :
    r.title = pretty p.name.str ∧ r.unit = p.unit.symbol := by
  rcases prop_report_cases p with ⟨⟨lo, hi, h1, h2⟩, -⟩ | ⟨-, h1⟩
  · rw [prop_report_eq p lo hi h1 h2] at h
    cases h
    exact ⟨rfl, rfl⟩
  · rw [h1] at h; cases h

theorem printedParts {t s : Shallot K} (ho : Owned t s) (r : GridReport K) (h : s.report = .ok r) :
    PrintedParts s r := by
  obtain ⟨-, -, -, h1, h2, h3, h4, -⟩ := report_parts h
  have lab : ∀ c p q, s.prop c = some p → p.report = .ok q →
      q.title = pretty (nameOf c).str ∧ q.unit = (unitOf c).symbol := by
    intro c p q hp hq
    obtain ⟨-, l1, l2⟩ := ho.props c p hp
    rw [← l1, ← l2]
    exact report_titles p q hq
  obtain ⟨g1, g2⟩ := gradientReports_get _ _ h4
  refine ⟨⟨h1, ?_⟩, ⟨h2, ?_⟩, ⟨h3, ?_⟩, g1, fun j g hj => ?_⟩
  · obtain ⟨a, b⟩ := lab .diskRadius _ _ rfl h1
    exact ⟨a.trans (by decide +kernel), b⟩
  · obtain ⟨a, b⟩ := lab .tilt _ _ rfl h2
    exact ⟨a.trans (by decide +kernel), b⟩
  · obtain ⟨a, b⟩ := lab .inclination _ _ rfl h3
    exact ⟨a.trans (by decide +kernel), b⟩
  · obtain ⟨e, e1, e2⟩ := g2 j g hj
    obtain ⟨k1, k2, k3⟩ := gradient_report_parts e2
    refine ⟨e, e1, k1, k2, ?_, ?_⟩
    · rcases k3 with ⟨a, b⟩ | ⟨_, _, _, _, -, -, -, -, a, b⟩
      · simp [a, b]
      · simp [a, b]
    · intro w hw
      rcases k3 with ⟨a, b⟩ | ⟨m, er, o, t, a1, a2, a3, a4, -, b⟩
      · rw [hw] at b; cases b
      · rw [hw] at b
        cases b
        exact ⟨m, er, o, t, a1, a2, a3, a4, rfl, rfl, rfl, rfl⟩

/-- **C96** Whatever was called since a grid was built, if it can be printed, it prints its parts. -/
theorem C96_parts [RealFns K] [FloorRing K] (minX maxX numX minY maxY numY maxRf numRf : PyVal K) (g : GridParams K)
    (hg : GridParams.new minX maxX numX minY maxY numY maxRf numRf = .ok g)
    (hext : g.extendable = true → 2 ≤ g.sliceShape.1 ∧ 2 ≤ g.sliceShape.2) (v k : PyVal K)
    (s : Shallot K) (g' : GridParams K) (h : Shallot.new v k g = (.ok s, g')) (ops : List (GridOp K))
    (r : GridReport K) (hr : (runGrid ops s).report = .ok r) : PrintedParts (runGrid ops s) r := by
  obtain ⟨keep, hk, hmade⟩ := made_new _ _ _ _ _ _ _ _ g g' hg hext v k s h
  exact printedParts (runGrid_owned ops s hmade.owned) r hr

end

/-- What is printed of a measurement: the position of the star at its time, its slope and error, the
factor of the orbit and its transmission change. -/
structure Spec.PrintedMeasurement (D V U : ℝ) (q : Measurement ℝ) (e : GradReport ℝ) : Prop where
  title : e.prop.title = "Gradient" ∧ e.prop.unit = "-"
  position : e.position = q.time.neg.div (.fin D)
  measured : e.measured = some ⟨q.slope, q.error, .fin (orbitalFactor V U), q.transmission⟩

section
variable (minX maxX numX minY maxY numY maxRf numRf : PyVal ℝ) (g : GridParams ℝ)
    (hg : GridParams.new minX maxX numX minY maxY numY maxRf numRf = .ok g)
    (hext : g.extendable = true → 2 ≤ g.sliceShape.1 ∧ 2 ≤ g.sliceShape.2) (v k : PyVal ℝ)
    (s : Shallot ℝ) (g' : GridParams ℝ) (h : Shallot.new v k g = (.ok s, g'))
include hg hext h

/-- **C96, from the measurements to the text** After `set_eclipse_parameters` and any number of calls of
`add_gradients`, all successful, the grid prints one entry for each measurement, in the order in which
they were given. -/
theorem C96_measurements (vD vV vU : PyVal ℝ) (D V U : ℝ) (nD : IsNumber false vD (.fin D))
    (nV : IsNumber false vV (.fin V)) (nU : IsNumber false vU (.fin U)) (hV : 0 < V)
    (s₁ : Shallot ℝ) (h₁ : Shallot.setEclipseParameters vD vV vU s = (.ok (), s₁))
    (bs : List (List (Measurement ℝ))) (hne : bs ≠ [])
    (s₂ : Shallot ℝ) (h₂ : addCalls bs s₁ = (.ok (), s₂)) (r : GridReport ℝ) (hr : s₂.report = .ok r) :
    r.gradients.length = bs.flatten.length ∧
      ∀ (j : ℕ) (q : Measurement ℝ), bs.flatten[j]? = some q →
        ∃ e, r.gradients[j]? = some e ∧ PrintedMeasurement D V U q e := by
  obtain ⟨keep, hk, hmade⟩ := made_new _ _ _ _ _ _ _ _ g g' hg hext v k s h
  obtain ⟨hA, hB⟩ := C49_partial s (fun _ => hmade.nothing.2) vD vV vU
  have hval : NotNegative vD ∧ NotNegative vV ∧ Fraction vU := by
    by_contra hno
    obtain ⟨e, s', he, -⟩ := hB hno
    rw [h₁] at he
    cases he
  obtain ⟨z, nz, z0, z1⟩ := hval.2.2
  obtain rfl := isNumber_unique nz nU
  have u0 : 0 ≤ U := by simpa [less_iff] using z0
  have u1 : U ≤ 1 := by simpa [less_iff] using z1
  have e₁ := hA hval
  rw [h₁] at e₁
  replace e₁ := (Prod.mk.inj e₁).2
  have hready : s₁.ready = true := by rw [e₁]; rfl
  obtain ⟨d', scale, k1, k2, k3, k4⟩ := addCalls_ok bs s₁ s₂ hready hne h₂
  have hd' : d' = vD := by
    have := k1.eq
    rw [e₁] at this
    exact (Option.some.inj this).symm
  subst hd'
  obtain ⟨scale', k5, k6⟩ := C60_grid s₁ vV vU V U (by rw [e₁]) (by rw [e₁]) nV nU hV u0 u1
  rw [k2] at k5
  cases k5
  obtain ⟨-, -, -, -, -, -, hgr, -⟩ := report_parts hr
  obtain ⟨g1, g2⟩ := gradientReports_get _ _ hgr
  have hlist : s₂.gradients.getD [] = bs.flatten.map fun q => (gradientOf s₁ d' scale q).2 := by
    rw [k4, e₁]
    rfl
  rw [hlist] at g1 g2
  refine ⟨by rw [g1, List.length_map], fun j q hj => ?_⟩
  obtain ⟨e, he, hrep⟩ := g2 j (gradientOf s₁ d' scale q).2 (by rw [List.getElem?_map, hj]; rfl)
  obtain ⟨hpass, hok⟩ := k3 q (List.mem_of_getElem? hj)
  obtain ⟨p1, p2, p3⟩ := gradient_report_parts hrep
  obtain ⟨t1, t2⟩ := report_titles _ _ p1
  have habs : q.slope.abs = q.slope := by
    have := hpass.slope
    rw [less_iff] at this
    cases hq : q.slope with
    | nan => rfl
    | pinf => rfl
    | ninf => rw [hq] at this; simp at this
    | fin x =>
      rw [hq] at this
      rw [XF.abs_fin, abs_of_nonneg (by simpa using this)]
  unfold gradientOf measure at hok p3 t1 t2 p2
  rw [habs] at hok p3 t1 t2 p2
  have htitle : pretty PropName.gradient.str = "Gradient" := by decide +kernel
  have e1 : ∀ x : XF ℝ, orOne (.npFloat .w64 x : PyVal ℝ) = .npFloat .w64 x := fun x => by simp [orOne]
  refine ⟨e, he, ?_⟩
  rcases determineMask_cases (.npFloat .w64 q.slope) scale (.npFloat .w64 q.transmission)
      (.npFloat .w64 q.error) (blank s₁ (q.time.neg.div d'.num)) with ⟨-, e, h'⟩ | ⟨-, -, e, h'⟩ |
      ⟨-, -, -, e, h'⟩ | ⟨-, -, -, -, e, h'⟩ | ⟨-, -, -, -, ⟨e, -, h'⟩ | ⟨w, hq1, ⟨-, h'⟩ | ⟨-, h'⟩⟩⟩
  all_goals rw [h'] at hok
  all_goals first | (cases hok; done) | skip
  rw [h'] at p3 t1 t2 p2
  refine ⟨⟨t1.trans htitle, t2⟩, ?_, ?_⟩
  · rw [p2, ← isNumber_num nD]
    rfl
  · rcases p3 with ⟨a, -⟩ | ⟨m, er, o, t, a1, a2, a3, a4, -, b⟩
    · cases a
    · simp only [stored, e1, Option.some.injEq] at a1 a2 a3 a4
      rw [b, ← a1, ← a2, ← a3, ← a4, ← isNumber_num k6]
      rfl

end

/-- A grid and a measurement that meet the hypotheses of `C96_measurements`; with the calls that led to it
also those of `C96_parts`. -/
theorem throwAway_printed : ∃ (s s₁ s₂ : Shallot ℝ) (r : GridReport ℝ) (e : GradReport ℝ),
    Shallot.new (.int 100) (.bool false) throwAway = (.ok s, s.params) ∧
    Shallot.setEclipseParameters (.int 1) (.int 1) (.int 0) s = (.ok (), s₁) ∧
    addCalls [[probe (1 / 4) 0 1]] s₁ = (.ok (), s₂) ∧
    s₂ = runGrid [.eclipse (.int 1) (.int 1) (.int 0), .add (column [.fin (1 / 4)]) (column [.fin 0])
      (column [.fin 1]) (column [.fin 1])] s ∧ s₂.report = .ok r ∧ r.gradients = [e] ∧
    PrintedMeasurement 1 1 0 (probe (1 / 4) 0 1) e := by
  obtain ⟨s, s₁, s₂, h1, h2, h3, hgs, -⟩ := throwAway_candidates
  have hext : throwAway.extendable = true → 2 ≤ throwAway.sliceShape.1 ∧ 2 ≤ throwAway.sliceShape.2 :=
    fun _ => ⟨le_rfl, le_rfl⟩
  have n1 : IsNumber false (.int 1 : PyVal ℝ) (.fin 1) := Or.inl ⟨1, .int 1, by simp⟩
  have n0 : IsNumber false (.int 0 : PyVal ℝ) (.fin 0) := Or.inl ⟨0, .int 0, by simp⟩
  have hrun : s₂ = runGrid [.eclipse (.int 1) (.int 1) (.int 0), .add (column [.fin (1 / 4)]) (column [.fin 0])
      (column [.fin 1]) (column [.fin 1])] s := by
    show s₂ = (addCall [probe (1 / 4) 0 1]
      (Shallot.setEclipseParameters (.int 1) (.int 1) (.int 0) s).2).2
    rw [h2]
    show s₂ = (addCall [probe (1 / 4) 0 1] s₁).2
    unfold addCalls at h3
    rcases hc : addCall [probe (1 / 4) 0 1] s₁ with ⟨er | u, s'⟩
    · rw [bind_err _ _ _ _ _ hc] at h3
      cases h3
    · rw [bind_ok _ _ _ _ _ hc] at h3
      unfold addCalls at h3
      exact (Prod.mk.inj h3).2.symm
  obtain ⟨s', s₁', a1, a2, -, -, -, -, -, hready, hd, ⟨k, hk, hk2, ho⟩, -, hgn, -, -, hv⟩ := throwAway_axis_from
  rw [h1] at a1
  cases a1
  have hs₁ : s₁' = s₁ := by
    rw [a2]
    show (Shallot.setEclipseParameters (.int 1) (.int 1) (.int 0) s).2 = _
    rw [h2]
  subst hs₁
  have hprint : Prints s₂.report := by
    rw [hrun]
    refine C76_grid_partial _ _ _ _ _ _ _ _ throwAway throwAway_new 0 1 0 1 2 n0 n1 n0 n1
      (Or.inl ⟨2, .int 2, by simp⟩) hext (.int 100) (.bool false) 100 count_hundred false rfl s _ h1 ?_ _ ?_
    · have hx : throwAway.dx.data = [.fin 0, .fin 1] := two_points 0 1 one_pos
      have hy : throwAway.dy.data = [.fin 0, .fin 1] := two_points 0 1 one_pos
      exact ⟨1, 1, by rw [hx]; simp, by rw [hy]; simp, Or.inl one_ne_zero⟩
    · rw [← hrun]
      obtain ⟨d', scale, k1, k2, k3, k4⟩ := addCalls_ok _ s₁' s₂ hready (by simp) h3
      rw [hd.eq.symm.trans k1.eq |> Option.some.inj |>.symm] at k4
      rw [ho] at k2
      cases k2
      obtain ⟨hp, q, hq1, hq2, -⟩ := probe_ok s₁' k (1 / 4) 0 1 hk hk2 (by norm_num) (by norm_num)
        (by norm_num)
      intro q' hq'
      rw [k4, hgn] at hq'
      simp only [Option.getD_none, List.nil_append, List.flatten_cons, List.flatten_nil, List.append_nil,
        List.map_cons, List.map_nil, hq1, Option.getD_some, List.mem_singleton] at hq'
      subst hq'
      intro hall
      obtain ⟨w, w1, -⟩ := hv 22 (Or.inr rfl) (-(1 / 4))
      rw [hq2] at hall
      cases hall _ (List.mem_of_getElem? w1)
  obtain ⟨r, hr⟩ := hprint
  obtain ⟨l1, l2⟩ := C96_measurements _ _ _ _ _ _ _ _ throwAway throwAway_new hext _ _ s _ h1 (.int 1) (.int 1)
    (.int 0) 1 1 0 n1 n1 n0 one_pos s₁' h2 _ (by simp) s₂ h3 r hr
  obtain ⟨e, e1, e2⟩ := l2 0 _ rfl
  obtain ⟨e', he'⟩ := List.length_eq_one_iff.1 l1
  rw [he'] at e1
  cases e1
  exact ⟨s, s₁', s₂, r, _, h1, h2, h3, hrun, hr, he', e2⟩

end Beyonce
