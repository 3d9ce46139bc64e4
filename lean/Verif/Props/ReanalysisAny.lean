import Verif.Props.Reanalysis

/-!
# What an analysis finds on a grid with any past

`C114_partial` leaves out the calls that harm the disks: masked reads and masks of the Hill radius.  Here
all calls are allowed, and the harm is stated exactly.
-/

set_option linter.unusedSectionVars false

namespace Beyonce
open Spec Geometry Real

/-- Whether `determine_mask` accepts a measurement, the scaled gradient, the error and the threshold do not
depend on the grid. -/
theorem gradientOf_any {K : Type} [Field K] [LinearOrder K] [IsStrictOrderedRing K] [FloorRing K] [RealFns K]
    (s : Shallot K) (d scale : PyVal K) (q : Measurement K) (hok : (gradientOf s d scale q).1 = .ok ()) :
    ∃ θ sc er, ∀ t : Shallot K, (gradientOf t d scale q).1 = .ok () ∧
      (gradientOf t d scale q).2.scaled = sc ∧ (gradientOf t d scale q).2.error = er ∧
      (gradientOf t d scale q).2.prop.data = t.gradientCube (q.time.neg.div d.num) ∧
      ∃ mask, (gradientOf t d scale q).2.prop.mask = some mask ∧
        mask.data = (t.gradientCube (q.time.neg.div d.num)).data.map (GGrad.maskAt θ) := by
  unfold gradientOf measure at hok
  rcases determineMask_cases (.npFloat .w64 q.slope.abs) scale (.npFloat .w64 q.transmission)
      (.npFloat .w64 q.error) (blank s (q.time.neg.div d.num)) with ⟨-, e', h'⟩ | ⟨-, -, e', h'⟩ |
      ⟨-, -, -, e', h'⟩ | ⟨-, -, -, -, e', h'⟩ | ⟨n1, n2, n3, n4, ⟨e', -, h'⟩ | ⟨k, hk1, ⟨-, h'⟩ | ⟨hlt, h'⟩⟩⟩
  all_goals first | (rw [h'] at hok; cases hok; done) | skip
  refine ⟨(PyVal.npFloat .w64 q.slope.abs : PyVal K).num.mul (scale.num.mul k),
    .ok (some ((PyVal.npFloat .w64 q.slope.abs : PyVal K).num.mul (scale.num.mul k))),
    some (orOne (.npFloat .w64 q.error)), fun t => ?_⟩
  unfold gradientOf measure
  rcases determineMask_cases (.npFloat .w64 q.slope.abs) scale (.npFloat .w64 q.transmission)
      (.npFloat .w64 q.error) (blank t (q.time.neg.div d.num)) with ⟨m, -⟩ | ⟨-, m, -⟩ |
      ⟨-, -, m, -⟩ | ⟨-, -, -, m, -⟩ | ⟨-, -, -, -, ⟨e', m, -⟩ | ⟨k', m, m'⟩⟩
  · exact absurd n1 m
  · exact absurd n2 m
  · exact absurd n3 m
  · exact absurd n4 m
  · rw [hk1] at m; cases m
  · rw [hk1] at m
    cases m
    rcases m' with ⟨m, -⟩ | ⟨-, m⟩
    · rw [hlt] at m; cases m
    rw [m]
    refine ⟨rfl, ?_, rfl, rfl, _, rfl, rfl⟩
    have hst := scaled_stored (blank t (q.time.neg.div d.num)) (.npFloat .w64 q.slope.abs) scale
      (.npFloat .w64 q.transmission) (.npFloat .w64 q.error)
    rw [hk1] at hst
    simp only at hst
    rw [hlt] at hst
    exact hst

/-- What an accepted `set_eclipse_parameters` leaves, but for the gradients and the fit. -/
theorem setEclipse_leaves {K : Type} [Field K] [LinearOrder K] [IsStrictOrderedRing K] [FloorRing K] [RealFns K]
    (vD vV vU : PyVal K) (u s₁ : Shallot K) (h : Shallot.setEclipseParameters vD vV vU u = (.ok (), s₁)) :
    (NotNegative vD ∧ NotNegative vV ∧ Fraction vU) ∧ s₁ = { u with
      eclipseDuration := some vD, velocity := some vV, limb := some vU, gradients := none
      gradientFit := s₁.gradientFit } := by
  unfold Shallot.setEclipseParameters at h
  rcases storeEclipse_cases vD vV vU u with ⟨n1, n2, n3, h'⟩ | ⟨-, -, -, e, h'⟩ | ⟨-, -, e, h'⟩ | ⟨-, e, h'⟩
  · refine ⟨⟨n1, n2, n3⟩, ?_⟩
    rw [bind_ok _ _ _ _ _ h', Meth.get_bind] at h
    cases hg : u.gradients with
    | none =>
      simp only [hg] at h
      obtain rfl := (Prod.mk.inj h).2
      rw [← hg]
    | some l =>
      simp only [hg] at h
      obtain rfl := (Prod.mk.inj h).2
      rfl
  all_goals
    rw [bind_err _ _ _ _ _ h'] at h
    cases h

/-! ## What is left of a grid point -/

/-- The scale factors of the grid point are those that the grid `s` was made with, and no mask other than
those of gradients covers the point. -/
def Spec.Survives (u s : Shallot ℝ) (p : ℕ × ℕ × ℕ) : Prop :=
  u.fxMap.data.at3 p.1 p.2.1 p.2.2 = s.fxMap.data.at3 p.1 p.2.1 p.2.2 ∧
  u.fyMap.data.at3 p.1 p.2.1 p.2.2 = s.fyMap.data.at3 p.1 p.2.1 p.2.2 ∧
  ¬ Marked u.diskRadius.mask (flat s p.1 p.2.1 p.2.2) ∧ ¬ Marked u.inclination.mask (flat s p.1 p.2.1 p.2.2) ∧
  ¬ Marked u.tilt.mask (flat s p.1 p.2.1 p.2.2)

/-- These are the best solutions among what is left of the grid `s` after it became `u`: they belong to
different grid points that survived, each with a disk of the grid `s` that explains the measurements with the
value reported; the radius, inclination and tilt reported are what `u` has there, which is that disk's or
NaN; none is followed by a better one; there are as many as asked for; and a disk of the grid `s` that
survived and explains the measurements is among them, or, if a number was asked for, not better than any. -/
def Spec.BestSurvivors (s u : Shallot ℝ) (weighted : Bool) (duration velocity limb : ℝ)
    (qs : List (Measurement ℝ)) (num : PyVal ℝ) (k : ℤ) (rows : List (Shallot.Solution ℝ)) : Prop :=
  ∃ ps : List (ℕ × ℕ × ℕ), ps.Nodup ∧
    List.Forall₂ (fun p (row : Shallot.Solution ℝ) => ∃ dx dy R I T z,
      row = ⟨.fin z, u.diskRadius.data.at3 p.1 p.2.1 p.2.2, u.inclination.data.at3 p.1 p.2.1 p.2.2,
        u.tilt.data.at3 p.1 p.2.1 p.2.2, .fin dx, .fin dy⟩ ∧
      HoldsDisk s p dx dy R I T ∧ Survives u s p ∧ Explains weighted duration velocity limb qs dx dy R I T z ∧
      (row.diskRadius = .nan ∨ row.diskRadius = .fin R) ∧
      (row.inclination = .nan ∨ row.inclination = .fin I) ∧ (row.tilt = .nan ∨ row.tilt = .fin T)) ps rows ∧
    rows.Pairwise (fun a b => ¬ Less b.rms a.rms) ∧ (num ≠ .none → (rows.length : ℤ) = k) ∧
    ∀ p dx dy R I T z, HoldsDisk s p dx dy R I T → Survives u s p →
      Explains weighted duration velocity limb qs dx dy R I T z →
      p ∈ ps ∨ (num ≠ .none ∧ ∀ row ∈ rows, ¬ Less (.fin z) row.rms)

/-- The diagnostic map is not `None`. -/
def mapScheme {K : Type} : Scheme K where
  cube c o := c = .diagnosticMap → o ≠ none
  grad _ := True

theorem mapScheme_closed : (mapScheme (K := ℝ)).Closed where
  getData _ _ _ _ _ := by simp
  nanWhere _ _ _ _ _ := by simp
  eraseAt _ _ _ _ _ := by simp
  setMask _ _ _ _ _ := by simp
  noFit h := by cases h
  newFit _ _ _ _ _ := by simp
  newMap _ _ _ _ _ := by simp
  gradGet _ _ _ := trivial
  gradMask _ _ _ _ _ _ := trivial
  gradNew _ _ _ _ _ := trivial

section
variable {s u : Shallot ℝ} (hu : (slopeScheme s).Holds u) (y x r : ℕ) (hy : y < s.params.gridShape.1)
    (hx : x < s.params.gridShape.2.1) (hr : r < s.params.gridShape.2.2) (p : XF ℝ)
include hu hy hx hr

/-- With the scale factors a gradient is the same. -/
theorem cube_kept (h1 : u.fxMap.data.at3 y x r = s.fxMap.data.at3 y x r)
    (h2 : u.fyMap.data.at3 y x r = s.fyMap.data.at3 y x r) :
    (u.gradientCube p).data[flat s y x r]? = (s.gradientCube p).data[flat s y x r]? := by
  obtain ⟨f1, f2⟩ := hu.frame
  unfold Shallot.gradientCube flat
  rw [f1, f2, cubeOf_get _ _ _ _ hy hx hr, cubeOf_get _ _ _ _ hy hx hr, h1, h2]

/-- Without, it is NaN. -/
theorem cube_lost (h : u.fxMap.data.at3 y x r ≠ s.fxMap.data.at3 y x r ∨
      u.fyMap.data.at3 y x r ≠ s.fyMap.data.at3 y x r) :
    (u.gradientCube p).data[flat s y x r]? = some .nan := by
  obtain ⟨f1, f2⟩ := hu.frame
  obtain ⟨a1, a2⟩ := hu.props .fxMap (Or.inl rfl) _ _ rfl rfl
  obtain ⟨b1, b2⟩ := hu.props .fyMap (Or.inr rfl) _ _ rfl rfl
  have hn : u.fxMap.data.at3 y x r = .nan ∨ u.fyMap.data.at3 y x r = .nan := by
    rcases slope_at3 a1 a2 y x r with e1 | e1
    · exact Or.inl e1
    · rcases slope_at3 b1 b2 y x r with e2 | e2
      · exact Or.inr e2
      · rcases h with h | h
        · exact absurd e1 h
        · exact absurd e2 h
  unfold Shallot.gradientCube flat
  rw [f1, f2, cubeOf_get _ _ _ _ hy hx hr, diskGradient_unknown _ _ _ _ _ _ hn]

end

/-! ## The solutions of any fit -/

/-- What `extract_solutions` returns when the candidates and their fits are known. -/
theorem solutions_of (s : Shallot ℝ) (hs : Sound s) (hd : s.diagnosticMap ≠ none) (f : ℕ → ℝ)
    (hf : FitIs s f) (Q : ℕ × ℕ × ℕ → ℝ → Prop)
    (h1 : ∀ y x r, y < s.params.gridShape.1 → x < s.params.gridShape.2.1 → r < s.params.gridShape.2.2 →
      flat s y x r ∈ unmasked s → Q (y, x, r) (f (flat s y x r)))
    (h2 : ∀ p z, Q p z → p.1 < s.params.gridShape.1 ∧ p.2.1 < s.params.gridShape.2.1 ∧
      p.2.2 < s.params.gridShape.2.2 ∧ flat s p.1 p.2.1 p.2.2 ∈ unmasked s ∧ f (flat s p.1 p.2.1 p.2.2) = z)
    (num : PyVal ℝ) (k : ℤ) (hnum : num = .none ∨ PlainIndex num k) :
    (∃ rows s', Shallot.extractSolutions num s = (.ok rows, s') ∧
      ∃ ps : List (ℕ × ℕ × ℕ), ps.Nodup ∧
        List.Forall₂ (fun p (row : Shallot.Solution ℝ) => ∃ z dx dy, Q p z ∧
          s.params.dx.data[p.2.1]? = some dx ∧ s.params.dy.data[p.1]? = some dy ∧
          row = ⟨.fin z, s.diskRadius.data.at3 p.1 p.2.1 p.2.2, s.inclination.data.at3 p.1 p.2.1 p.2.2,
            s.tilt.data.at3 p.1 p.2.1 p.2.2, dx, dy⟩) ps rows ∧
        rows.Pairwise (fun a b => ¬ Less b.rms a.rms) ∧ (num ≠ .none → (rows.length : ℤ) = k) ∧
        ∀ p z, Q p z → p ∈ ps ∨ (num ≠ .none ∧ ∀ row ∈ rows, ¬ Less (.fin z) row.rms)) ∨
    (num ≠ .none ∧ Shallot.extractSolutions num s = (.error .valueError, s) ∧
      (k < 0 ∨ ∀ ps : List (ℕ × ℕ × ℕ), ps.Nodup → (∀ p ∈ ps, ∃ z, Q p z) → (ps.length : ℤ) < k)) := by
  have none_or : ∀ w, PlainIndex num w → num ≠ .none := by
    intro w hw
    cases hw <;> simp
  have hcount : (∃ kk : ℕ, AsksFor s num kk ∧ kk ≤ (unmasked s).card ∧ (num ≠ .none → (kk : ℤ) = k) ∧
      (num = .none → kk = (unmasked s).card)) ∨
      (PlainIndex num k ∧ (k < 0 ∨ ((unmasked s).card : ℤ) < k)) := by
    rcases hnum with rfl | hp
    · exact Or.inl ⟨_, Or.inl ⟨rfl, rfl⟩, le_rfl, fun hh => absurd rfl hh, fun _ => rfl⟩
    · by_cases hno : k < 0 ∨ ((unmasked s).card : ℤ) < k
      · exact Or.inr ⟨hp, hno⟩
      · push Not at hno
        obtain ⟨kk, rfl⟩ := Int.eq_ofNat_of_zero_le hno.1
        exact Or.inl ⟨kk, Or.inr hp, by exact_mod_cast hno.2, fun _ => rfl, fun hh => absurd hh (none_or _ hp)⟩
  have hback : ∀ p z, Q p z →
      unravel s.params.gridShape.2.1 s.params.gridShape.2.2 (flat s p.1 p.2.1 p.2.2) = p := by
    rintro ⟨y, x, r⟩ z hq
    obtain ⟨-, hx, hr, -⟩ := h2 _ _ hq
    exact unravel_flat hx hr
  rcases hcount with ⟨kk, ask, hle, hk1, hk2⟩ | ⟨hp, hbad⟩
  · left
    obtain ⟨is, rows, s₄, x1, x2, x3, x4, x5, x6, x7⟩ := C45_best_partial s hs hd f hf num kk ask hle
    have hrms : ∀ row ∈ rows, ∃ j ∈ is, row.rms = .fin (f j) := by
      clear x1 x2 x3 x4 x5 x6 hk1 hk2 ask
      induction x7 with
      | nil => intro row hrow; cases hrow
      | cons h2 _ ih =>
        intro row hrow
        rcases List.mem_cons.1 hrow with rfl | hrow
        · exact ⟨_, by simp, h2.1⟩
        · obtain ⟨j, hj, hj'⟩ := ih row hrow
          exact ⟨j, by simp [hj], hj'⟩
    refine ⟨rows, s₄, x1, is.map (unravel s.params.gridShape.2.1 s.params.gridShape.2.2), ?_, ?_, ?_, ?_, ?_⟩
    · refine x3.map_on ?_
      intro i hi j hj hij
      have li := (mem_unmasked.1 (x4 i hi)).1
      have lj := (mem_unmasked.1 (x4 j hj)).1
      unfold elements at li lj
      rw [← (unravel_spec li).2.2.2, ← (unravel_spec lj).2.2.2, hij]
    · rw [List.forall₂_map_left_iff]
      have hboth : ∀ i ∈ is, ∀ row : Shallot.Solution ℝ, row.rms = XF.fin (f i) ∧ RowOf s i row →
          ∃ z dx dy, Q (unravel s.params.gridShape.2.1 s.params.gridShape.2.2 i) z ∧
            s.params.dx.data[(unravel s.params.gridShape.2.1 s.params.gridShape.2.2 i).2.1]? = some dx ∧
            s.params.dy.data[(unravel s.params.gridShape.2.1 s.params.gridShape.2.2 i).1]? = some dy ∧
            row = ⟨.fin z,
              s.diskRadius.data.at3 (unravel s.params.gridShape.2.1 s.params.gridShape.2.2 i).1
                (unravel s.params.gridShape.2.1 s.params.gridShape.2.2 i).2.1
                (unravel s.params.gridShape.2.1 s.params.gridShape.2.2 i).2.2,
              s.inclination.data.at3 (unravel s.params.gridShape.2.1 s.params.gridShape.2.2 i).1
                (unravel s.params.gridShape.2.1 s.params.gridShape.2.2 i).2.1
                (unravel s.params.gridShape.2.1 s.params.gridShape.2.2 i).2.2,
              s.tilt.data.at3 (unravel s.params.gridShape.2.1 s.params.gridShape.2.2 i).1
                (unravel s.params.gridShape.2.1 s.params.gridShape.2.2 i).2.1
                (unravel s.params.gridShape.2.1 s.params.gridShape.2.2 i).2.2, dx, dy⟩ := by
        rintro i hi row ⟨hrms, y, x, r, hy, hx, hr, rfl, q1, q2, q3, q4, q5⟩
        have hun : unravel s.params.gridShape.2.1 s.params.gridShape.2.2 (flat s y x r) = (y, x, r) :=
          unravel_flat hx hr
        rw [hun]
        have hval : ∀ (c : Cube) (p : GProp ℝ) (w : XF ℝ), s.prop c = some p →
            p.data.data[flat s y x r]? = some w → w = p.data.at3 y x r := by
          intro c p w hp h1
          rw [at3_get (hs.props c p hp).data.1]
          unfold flat at h1
          rw [getD_of_get _ _ _ h1]
        refine ⟨_, row.dx, row.dy, h1 y x r hy hx hr (x4 _ hi), q4, q5, ?_⟩
        obtain ⟨_, _, _, _, _, _⟩ := row
        simp only at hrms q1 q2 q3
        rw [hrms, hval .diskRadius _ _ rfl q1, hval .inclination _ _ rfl q2, hval .tilt _ _ rfl q3]
      clear x1 x2 x3 x5 x6 hk1 hk2 ask hrms
      clear x4
      induction x7 with
      | nil => exact .nil
      | cons h1 _ ih =>
        exact .cons (hboth _ (by simp) _ h1) (ih (fun i hi => hboth i (by simp [hi])))
    · clear x1 x2 x3 x4 x6 hk1 hk2 ask hrms
      induction x7 with
      | nil => exact .nil
      | @cons i row is rows h1 hrest ih =>
        rw [List.pairwise_cons] at x5 ⊢
        refine ⟨fun row' hrow' => ?_, ih x5.2⟩
        obtain ⟨j, hj, hj'⟩ : ∃ j ∈ is, row'.rms = .fin (f j) := by
          clear ih x5
          induction hrest with
          | nil => cases hrow'
          | cons h2 _ ih =>
            rcases List.mem_cons.1 hrow' with rfl | hrow'
            · exact ⟨_, by simp, h2.1⟩
            · obtain ⟨j, hj, hj'⟩ := ih hrow'
              exact ⟨j, by simp [hj], hj'⟩
        rw [h1.1, hj', less_fin_iff, not_lt]
        rcases x5.1 j hj with hlt | ⟨heq, -⟩
        · exact hlt.le
        · exact heq.le
    · intro hno
      rw [← x7.length_eq, x2]
      exact hk1 hno
    · intro p z hq
      obtain ⟨-, -, -, hi, hfi⟩ := h2 p z hq
      by_cases hin : flat s p.1 p.2.1 p.2.2 ∈ is
      · left
        rw [List.mem_map]
        exact ⟨_, hin, hback p z hq⟩
      · right
        refine ⟨?_, ?_⟩
        · intro hnone
          have hsub : is.toFinset ⊆ unmasked s := fun i hi => x4 i (List.mem_toFinset.1 hi)
          have hcard : (unmasked s).card ≤ is.toFinset.card := by
            rw [List.toFinset_card_of_nodup x3, x2, hk2 hnone]
          have := Finset.eq_of_subset_of_card_le hsub hcard
          rw [← this, List.mem_toFinset] at hi
          exact hin hi
        · intro row hrow
          obtain ⟨j, hj, hj'⟩ := hrms row hrow
          rw [hj', less_fin_iff, not_lt, ← hfi]
          rcases x6 j hj _ hi hin with hlt | ⟨heq, -⟩
          · exact hlt.le
          · exact heq.le
  · right
    refine ⟨none_or _ hp, C45_count s hs num k hp hbad, ?_⟩
    rcases hbad with hbad | hbad
    · exact Or.inl hbad
    · right
      intro ps hnd hps
      refine lt_of_le_of_lt ?_ hbad
      rw [Nat.cast_le]
      have hinj : (ps.map fun p => flat s p.1 p.2.1 p.2.2).Nodup := by
        refine hnd.map_on ?_
        intro p hp' p' hp'' he
        obtain ⟨z, hz⟩ := hps p hp'
        obtain ⟨z', hz'⟩ := hps p' hp''
        rw [← hback p z hz, ← hback p' z' hz', he]
      have hsub : (ps.map fun p => flat s p.1 p.2.1 p.2.2).toFinset ⊆ unmasked s := by
        intro i hi
        rw [List.mem_toFinset, List.mem_map] at hi
        obtain ⟨p, hp', rfl⟩ := hi
        obtain ⟨z, hz⟩ := hps p hp'
        exact (h2 p z hz).2.2.2.1
      have := Finset.card_le_card hsub
      rwa [List.toFinset_card_of_nodup hinj, List.length_map] at this

/-! ## The fit on a grid with any past -/

/-- Gradients with the same scaled gradient, the same error and the same element add the same. -/
theorem terms_unique {w : Bool} {i : ℕ} {A B : Measurement ℝ → GGrad ℝ} : ∀ (qs : List (Measurement ℝ))
    (ys zs : List (XF ℝ)), (∀ q ∈ qs, (A q).scaled = (B q).scaled ∧ (A q).error = (B q).error ∧
      (A q).prop.data.data[i]? = (B q).prop.data.data[i]?) →
    List.Forall₂ (Term w i) (qs.map A) ys → List.Forall₂ (Term w i) (qs.map B) zs → ys = zs
  | [], ys, zs, _, h1, h2 => by cases h1; cases h2; rfl
  | q :: qs, ys, zs, h, h1, h2 => by
    cases h1 with
    | cons a as =>
      cases h2 with
      | cons b bs =>
        rw [terms_unique qs _ _ (fun q' hq' => h q' (by simp [hq'])) as bs]
        obtain ⟨e1, e2, e3⟩ := h q (by simp)
        obtain ⟨m, e, v, a1, a2, a3, a4, rfl⟩ := a
        obtain ⟨m', e', v', b1, b2, b3, b4, rfl⟩ := b
        rw [← e1, a1] at b1
        rw [← e3, a4] at b4
        cases b1
        cases b4
        have : e = e' := by
          cases w with
          | true =>
            obtain ⟨x, c1, rfl⟩ := a2 rfl
            obtain ⟨x', c2, rfl⟩ := b2 rfl
            rw [← e2, c1] at c2
            cases c2
            rfl
          | false => rw [a3 rfl, b3 rfl]
        rw [this]

/-- The value of the fit at an unmasked element, from the gradients. -/
theorem fit_value (w : Bool) (s₂ s₃ : Shallot ℝ) (hs : Sound s₂) (l : List (GGrad ℝ))
    (hl : s₂.gradients = some l) (hfit : Shallot.determineFit w s₂ = (.ok (), s₃)) (f : ℕ → ℝ)
    (hf : FitIs s₃ f) (i : ℕ) (hi : i ∈ unmasked s₃) :
    ∃ ys, List.Forall₂ (Term w i) l ys ∧ XF.fin (f i) = ys.foldl XF.add (.fin 0) := by
  obtain ⟨p, p1, pv⟩ := hf
  have p2 := (pv _ hi).1
  clear pv
  have hlt := (mem_unmasked.1 hi).1
  rcases determineFit_cases w s₂ with ⟨h', -⟩ | ⟨gs, hgs, ⟨e, h', -⟩ | ⟨p', data, hfl, hp, -, h'⟩⟩
  · rw [hl] at h'; cases h'
  · rw [hfit] at h'; cases h'
  rw [hl] at hgs
  cases hgs
  rw [hfit] at h'
  have e3 := (Prod.mk.inj h').2
  subst e3
  cases p1
  rw [hp] at p2
  obtain ⟨-, hys⟩ := fitLoop_spec w _ _ _ data List.length_replicate
    (fun g hgs => ((hs.gradients _ hl g hgs).data.2)) hfl
  exact hys i (.fin 0) _ (by
    rw [List.getElem?_replicate, if_pos]
    exact hlt) p2

section
variable (minX maxX numX minY maxY numY maxRf numRf : PyVal ℝ) (g : GridParams ℝ)
    (hg : GridParams.new minX maxX numX minY maxY numY maxRf numRf = .ok g) (a b c d m : ℝ)
    (ha : IsNumber false minX (.fin a)) (hb : IsNumber false maxX (.fin b))
    (hc : IsNumber false minY (.fin c)) (hd : IsNumber false maxY (.fin d))
    (hm : IsNumber false maxRf (.fin m))
    (hext : g.extendable = true → 2 ≤ g.sliceShape.1 ∧ 2 ≤ g.sliceShape.2) (v k : PyVal ℝ)
    (s : Shallot ℝ) (g' : GridParams ℝ) (h : Shallot.new v k g = (.ok s, g'))
include hg ha hb hc hd hm hext h

/-- **C114, after any calls (partial)** A grid is built over finite coordinates, and any sequence of calls is
made on it, with any arguments and exceptions caught, masked reads and masks of the Hill radius included.
Then the parameters of an eclipse and its measurements are given, with success.  The same parameters and
measurements are accepted on the new grid; the combined mask leaves exactly the grid points that survived and
have a disk that explains the measurements; the fit succeeds; and `extract_solutions` returns the best
solutions among the disks of the new grid that survived: no wrong solution is reported, and no solution is
missed but those whose grid point did not survive.  Missing: the other grid points, see `C114_false`, and the
radius, inclination and tilt reported may be NaN. -/
theorem C114_any_partial (ops : List (GridOp ℝ)) (vD vV vU : PyVal ℝ) (D V U : ℝ)
    (nD : IsNumber false vD (.fin D)) (nV : IsNumber false vV (.fin V)) (nU : IsNumber false vU (.fin U))
    (hD : 0 < D) (hV : 0 < V) (s₁ : Shallot ℝ)
    (h₁ : Shallot.setEclipseParameters vD vV vU (runGrid ops s) = (.ok (), s₁))
    (bs : List (List (Measurement ℝ))) (hne : bs.flatten ≠ [])
    (hfin : ∀ q ∈ bs.flatten, ∃ τ σ ρ e : ℝ, q.time = .fin τ ∧ q.slope = .fin σ ∧
      q.transmission = .fin ρ ∧ 0 < ρ ∧ q.error = .fin e ∧ 0 < e)
    (s₂ : Shallot ℝ) (h₂ : addCalls bs s₁ = (.ok (), s₂)) (w : Bool) :
    (∃ t₁ t₂, Shallot.setEclipseParameters vD vV vU s = (.ok (), t₁) ∧ addCalls bs t₁ = (.ok (), t₂)) ∧
    (∃ mask, s₂.combinedMask = .ok mask ∧ ∀ y x r, y < s.params.gridShape.1 → x < s.params.gridShape.2.1 →
      r < s.params.gridShape.2.2 → (mask.data[flat s y x r]? = some false ↔
        Survives (runGrid ops s) s (y, x, r) ∧ ∃ dx dy R I T z, HoldsDisk s (y, x, r) dx dy R I T ∧
          Explains w D V U bs.flatten dx dy R I T z)) ∧
    ∃ s₃, Shallot.determineFit w s₂ = (.ok (), s₃) ∧
    ∀ (num : PyVal ℝ) (k : ℤ), num = .none ∨ PlainIndex num k →
      (∃ rows s₄, Shallot.extractSolutions num s₃ = (.ok rows, s₄) ∧
        BestSurvivors s (runGrid ops s) w D V U bs.flatten num k rows) ∨
      (num ≠ .none ∧ Shallot.extractSolutions num s₃ = (.error .valueError, s₃) ∧
        (k < 0 ∨ ∀ ps : List (ℕ × ℕ × ℕ), ps.Nodup → (∀ p ∈ ps, ∃ dx dy R I T z,
          HoldsDisk s p dx dy R I T ∧ Survives (runGrid ops s) s p ∧
          Explains w D V U bs.flatten dx dy R I T z) → (ps.length : ℤ) < k)) := by
  obtain ⟨keep, hk, hmade⟩ := made_new _ _ _ _ _ _ _ _ g g' hg hext v k s h
  obtain ⟨n, hn⟩ := hmade.count
  obtain ⟨⟨b', hfrom⟩, -⟩ := made_report _ _ _ _ _ _ _ _ g hg a b c d m ha hb hc hd hm hext v k n hn keep hk s
    g' h
  have hbs : bs ≠ [] := by rintro rfl; exact hne rfl
  have hsl := runGrid_holds (slopeScheme_closed s) ops s (slopeScheme_start s hmade.nothing.1)
  have hdk := runGrid_holds (diskScheme_closed s) ops s (diskScheme_start s)
  have hmp := (runGrid_holds mapScheme_closed ops s ⟨fun c hc => by
    subst hc
    show s.diagnosticMap ≠ none
    rw [hfrom.map]; simp, fun _ _ _ _ => trivial, trivial⟩).props .diagnosticMap rfl
  have hsu := runGrid_sound ops s hmade.sound
  generalize runGrid ops s = u at *
  have hpu : u.params = s.params := hsl.frame.1
  -- the two grids with the parameters
  obtain ⟨hval, e₁⟩ := setEclipse_leaves vD vV vU u s₁ h₁
  obtain ⟨t₁, h₁'⟩ : ∃ t₁, Shallot.setEclipseParameters vD vV vU s = (.ok (), t₁) :=
    ⟨_, (C49_partial s (fun _ => hmade.nothing.2) vD vV vU).1 hval⟩
  obtain ⟨-, e₁'⟩ := setEclipse_leaves vD vV vU s t₁ h₁'
  obtain ⟨z, nz, z0, z1⟩ := hval.2.2
  obtain rfl := isNumber_unique nz nU
  have u0 : 0 ≤ U := by simpa [less_iff] using z0
  have u1 : U ≤ 1 := by simpa [less_iff] using z1
  have hready : s₁.ready = true := by rw [e₁]; rfl
  have hready' : t₁.ready = true := by rw [e₁']; rfl
  have hsound₁ : Sound s₁ := by
    have := setEclipse_sound vD vV vU u hsu
    rw [h₁] at this
    exact this
  have hsound₁' : Sound t₁ := by
    have := setEclipse_sound vD vV vU s hmade.sound
    rw [h₁'] at this
    exact this
  have hsound₂ : Sound s₂ := by
    have := addCalls_sound bs s₁ hsound₁
    rw [h₂] at this
    exact this
  obtain ⟨d', scale, k1, k2, k3, k4⟩ := addCalls_ok bs s₁ s₂ hready hbs h₂
  have horb : t₁.orbital = s₁.orbital := by rw [e₁, e₁']; rfl
  have hdur : t₁.eclipseDuration = s₁.eclipseDuration := by rw [e₁, e₁']
  obtain ⟨t₂, h₂'⟩ := addCalls_of bs t₁ hready' d' scale ⟨hdur.trans k1.eq, k1.plain⟩ (horb.trans k2)
    (fun q hq => by
      obtain ⟨θ, sc, er, hall⟩ := gradientOf_any s₁ d' scale q (k3 q hq).2
      exact ⟨(k3 q hq).1, (hall t₁).1⟩)
  obtain ⟨d'', scale'', k1', k2', k3', k4'⟩ := addCalls_ok bs t₁ t₂ hready' hbs h₂'
  obtain rfl : d'' = d' := by
    have := k1'.eq
    rw [hdur, k1.eq] at this
    exact (Option.some.inj this).symm
  obtain rfl : scale'' = scale := by
    rw [horb, k2] at k2'
    exact (Except.ok.inj k2').symm
  have hsound₂' : Sound t₂ := by
    have := addCalls_sound bs t₁ hsound₁'
    rw [h₂'] at this
    exact this
  obtain ⟨scale', k5, k6⟩ := C60_grid s₁ vV vU V U (by rw [e₁]) (by rw [e₁]) nV nU hV u0 u1
  rw [k2] at k5
  cases k5
  have ho := isNumber_num k6
  have hgr : s₂.gradients = some (bs.flatten.map fun q => (gradientOf s₁ d'' scale'' q).2) := by
    rw [k4, e₁]
    show some ((none : Option (List (GGrad ℝ))).getD [] ++ _) = _
    rfl
  have hgr' : t₂.gradients = some (bs.flatten.map fun q => (gradientOf t₁ d'' scale'' q).2) := by
    rw [k4', e₁']
    show some ((none : Option (List (GGrad ℝ))).getD [] ++ _) = _
    rfl
  obtain ⟨s₃, f, d1, d2, d3, d4⟩ := determineFit_finite w s₂ hsound₂ _ hgr (by
    intro g hg'
    obtain ⟨q, hq', rfl⟩ := List.mem_map.1 hg'
    obtain ⟨τ, σ, ρ, e, a1, a2, a3, a4, a5, a6⟩ := hfin q hq'
    exact gradientOf_saneGradient s₁ _ _ q σ e ρ _ a2 a5 a6.ne' a3 a4.ne' ho (k3 q hq').2 w)
  obtain ⟨t₃, f', d1', d2', d3', d4', d5', d6', d7', d8', d9'⟩ := fit_explains _ _ _ _ _ _ _ _ g hg a b c d m ha hb
    hc hd hm hext v k s g' h vD vV vU D V U nD nV nU hD hV t₁ h₁' bs hne hfin t₂ h₂' w
  have hpar : s₃.params = s.params := by rw [d3, k4, e₁]; exact hpu
  have hcubes : ∀ p, s₁.gradientCube p = u.gradientCube p := fun p => by rw [e₁]; rfl
  have hcubet : ∀ p, t₁.gradientCube p = s.gradientCube p := fun p => by rw [e₁']; rfl
  have hflat : ∀ y x r, flat s₃ y x r = flat s y x r := fun y x r => by unfold flat; rw [hpar]
  -- the masks
  have hms : ∀ i, MaskedAt s₃ i ↔ Marked u.diskRadius.mask i ∨ Marked u.inclination.mask i ∨
      Marked u.tilt.mask i ∨ ∃ q ∈ bs.flatten, Marked (gradientOf s₁ d'' scale'' q).2.prop.mask i := by
    intro i
    have e : MaskedAt s₃ i ↔ MaskedAt s₂ i := by rw [d3]; rfl
    rw [e]
    unfold MaskedAt
    rw [hgr]
    have r1 : s₂.diskRadius = u.diskRadius := by rw [k4, e₁]
    have r2 : s₂.inclination = u.inclination := by rw [k4, e₁]
    have r3 : s₂.tilt = u.tilt := by rw [k4, e₁]
    rw [r1, r2, r3]
    simp only [Option.some.injEq, exists_eq_left', List.mem_map, exists_exists_and_eq_and]
  have hmt : ∀ i, MaskedAt t₃ i ↔
      ∃ q ∈ bs.flatten, Marked (gradientOf t₁ d'' scale'' q).2.prop.mask i := by
    intro i
    have r0 : t₃.gradients = t₂.gradients := by
      rcases determineFit_cases w t₂ with ⟨h', -⟩ | ⟨gs, hgs, ⟨e, h', -⟩ | ⟨p', data, hfl, hp, -, h'⟩⟩
      · rw [hgr'] at h'; cases h'
      · rw [d1'] at h'; cases h'
      · rw [d1'] at h'
        rw [(Prod.mk.inj h').2]
    unfold MaskedAt
    rw [r0, hgr', d5', d6', d7', hfrom.masks.1, hfrom.masks.2.1, hfrom.masks.2.2.1]
    simp only [Option.some.injEq, exists_eq_left', List.mem_map, exists_exists_and_eq_and]
    constructor
    · rintro (⟨_, hh, -⟩ | ⟨_, hh, -⟩ | ⟨_, hh, -⟩ | hh)
      · cases hh
      · cases hh
      · cases hh
      · exact hh
    · exact fun hh => Or.inr (Or.inr (Or.inr hh))
  have hone : ∀ q ∈ bs.flatten, ∀ y x r, y < s.params.gridShape.1 → x < s.params.gridShape.2.1 →
      r < s.params.gridShape.2.2 →
      ((u.fxMap.data.at3 y x r = s.fxMap.data.at3 y x r ∧ u.fyMap.data.at3 y x r = s.fyMap.data.at3 y x r) →
        (Marked (gradientOf s₁ d'' scale'' q).2.prop.mask (flat s y x r) ↔
          Marked (gradientOf t₁ d'' scale'' q).2.prop.mask (flat s y x r))) ∧
      (¬ (u.fxMap.data.at3 y x r = s.fxMap.data.at3 y x r ∧ u.fyMap.data.at3 y x r = s.fyMap.data.at3 y x r) →
        Marked (gradientOf s₁ d'' scale'' q).2.prop.mask (flat s y x r)) := by
    intro q hq y x r hy hx hr
    obtain ⟨θ, sc, er, hall⟩ := gradientOf_any s₁ _ _ q (k3 q hq).2
    obtain ⟨-, -, -, -, m₁, a1, a2⟩ := hall s₁
    obtain ⟨-, -, -, -, m₂, b1, b2⟩ := hall t₁
    have mark : ∀ (mk mask : Option Mask) (m₀ : Mask) (i : ℕ), mask = some m₀ →
        (Marked mask i ↔ m₀.data[i]? = some true) := by
      rintro mk mask m₀ i rfl
      exact ⟨fun ⟨_, e, h⟩ => by cases e; exact h, fun h => ⟨_, rfl, h⟩⟩
    rw [mark none _ _ _ a1, mark none _ _ _ b1, a2, b2, hcubes, hcubet, List.getElem?_map, List.getElem?_map]
    constructor
    · rintro ⟨f1, f2⟩
      rw [cube_kept hsl y x r hy hx hr _ f1 f2]
    · intro hno
      rw [cube_lost hsl y x r hy hx hr _ (by
        by_contra hh
        push Not at hh
        exact hno hh)]
      simp [GGrad.maskAt, XF.isNan]
  -- the candidates
  have hcand : ∀ y x r, y < s.params.gridShape.1 → x < s.params.gridShape.2.1 → r < s.params.gridShape.2.2 →
      (flat s y x r ∈ unmasked s₃ ↔ Survives u s (y, x, r) ∧ flat s y x r ∈ unmasked t₃) := by
    intro y x r hy hx hr
    have l1 : flat s y x r < elements s₃ := by
      unfold elements flat
      rw [hpar]
      exact flat_lt hy hx hr
    have l2 : flat s y x r < elements t₃ := by
      unfold elements flat
      rw [d4']
      exact flat_lt hy hx hr
    rw [mem_unmasked, mem_unmasked, hms, hmt]
    constructor
    · rintro ⟨-, hno⟩
      push Not at hno
      obtain ⟨n1, n2, n3, n4⟩ := hno
      obtain ⟨q, hq⟩ := List.exists_mem_of_ne_nil _ hne
      have hf : u.fxMap.data.at3 y x r = s.fxMap.data.at3 y x r ∧
          u.fyMap.data.at3 y x r = s.fyMap.data.at3 y x r := by
        by_contra hh
        exact n4 q hq ((hone q hq y x r hy hx hr).2 hh)
      refine ⟨⟨hf.1, hf.2, n1, n2, n3⟩, l2, ?_⟩
      rintro ⟨q', hq', hmk⟩
      exact n4 q' hq' (((hone q' hq' y x r hy hx hr).1 hf).2 hmk)
    · rintro ⟨⟨f1, f2, n1, n2, n3⟩, -, hno⟩
      refine ⟨l1, ?_⟩
      rintro (hh | hh | hh | ⟨q, hq, hmk⟩)
      · exact n1 hh
      · exact n2 hh
      · exact n3 hh
      · exact hno ⟨q, hq, ((hone q hq y x r hy hx hr).1 ⟨f1, f2⟩).1 hmk⟩
  -- their fits
  have hfit : ∀ y x r, y < s.params.gridShape.1 → x < s.params.gridShape.2.1 → r < s.params.gridShape.2.2 →
      flat s y x r ∈ unmasked s₃ → f (flat s y x r) = f' (flat s y x r) := by
    intro y x r hy hx hr hi
    obtain ⟨⟨f1, f2, -⟩, hi'⟩ := (hcand y x r hy hx hr).1 hi
    obtain ⟨ys, y1, y2⟩ := fit_value w s₂ s₃ hsound₂ _ hgr d1 f d4 _ hi
    obtain ⟨zs, z1, z2⟩ := fit_value w t₂ t₃ hsound₂' _ hgr' d1' f' d8' _ hi'
    have : ys = zs := by
      refine terms_unique bs.flatten ys zs ?_ y1 z1
      intro q hq
      obtain ⟨θ, sc, er, hall⟩ := gradientOf_any s₁ _ _ q (k3 q hq).2
      obtain ⟨-, a1, a2, a3, -⟩ := hall s₁
      obtain ⟨-, b1, b2, b3, -⟩ := hall t₁
      refine ⟨a1.trans b1.symm, a2.trans b2.symm, ?_⟩
      rw [a3, b3, hcubes, hcubet]
      exact cube_kept hsl y x r hy hx hr _ f1 f2
    rw [this, ← z2] at y2
    exact XF.fin.inj y2
  have huniq : ∀ y x r, y < s.params.gridShape.1 → x < s.params.gridShape.2.1 → r < s.params.gridShape.2.2 →
      ∀ dx dy R I T z, HoldsDisk s (y, x, r) dx dy R I T → Explains w D V U bs.flatten dx dy R I T z →
      flat s y x r ∈ unmasked t₃ ∧ f' (flat s y x r) = z := by
    intro y x r hy hx hr dx dy R I T z hdisk hz
    have hi := (d9' y x r hy hx hr).2 dx dy R I T z hdisk hz
    refine ⟨hi, ?_⟩
    obtain ⟨-, -, -, i1, i2, i3, i4, i5⟩ := hdisk
    obtain ⟨dx', dy', R', I', T', ⟨-, -, -, j1, j2, j3, j4, j5⟩, hf⟩ := (d9' y x r hy hx hr).1 hi
    rw [i1] at j1
    rw [i2] at j2
    rw [i3] at j3
    rw [i4] at j4
    rw [i5] at j5
    cases j1; cases j2; cases j3; cases j4; cases j5
    obtain ⟨r1, r2, r3⟩ := disk_ranges _ _ _ _ _ _ _ _ g hg a b c d m ha hb hc hd hm hext v k s g' h y x r
      hy hx hr _ _ i3 i4
    exact explains_unique r1 r2 r3 hf hz
  have hdiag : s₃.diagnosticMap ≠ none := by
    rw [d3, k4, e₁]
    exact hmp
  refine ⟨⟨t₁, t₂, h₁', h₂'⟩, ?_, s₃, d1, fun num k' hnum => ?_⟩
  · obtain ⟨mask, m1, m2, m3, m4⟩ := C38_union s₂ hsound₂
    refine ⟨mask, m1, fun y x r hy hx hr => ?_⟩
    have hlt : flat s y x r < mask.data.length := by
      rw [m3, ← show s₃.params = s₂.params by rw [d3], hpar]
      exact flat_lt hy hx hr
    have e1 : mask.data[flat s y x r]? = some false ↔ flat s y x r ∈ unmasked s₃ := by
      have e2 : MaskedAt s₃ (flat s y x r) ↔ MaskedAt s₂ (flat s y x r) := by rw [d3]; rfl
      have l1 : flat s y x r < elements s₃ := by
        unfold elements flat
        rw [hpar]
        exact flat_lt hy hx hr
      rw [mem_unmasked, e2, ← m4, List.getElem?_eq_getElem hlt]
      simp [l1]
    rw [e1, hcand y x r hy hx hr]
    refine and_congr_right fun _ => ⟨fun hi => ?_, ?_⟩
    · obtain ⟨dx, dy, R, I, T, q1, q2⟩ := (d9' y x r hy hx hr).1 hi
      exact ⟨dx, dy, R, I, T, _, q1, q2⟩
    · rintro ⟨dx, dy, R, I, T, z, q1, q2⟩
      exact (d9' y x r hy hx hr).2 dx dy R I T z q1 q2
  rcases solutions_of s₃ d2 hdiag f d4 (fun p z => ∃ dx dy R I T, HoldsDisk s p dx dy R I T ∧ Survives u s p ∧
      Explains w D V U bs.flatten dx dy R I T z) (by
        intro y x r hy hx hr hi
        rw [hpar] at hy hx hr
        rw [hflat] at hi ⊢
        obtain ⟨hsv, hi'⟩ := (hcand y x r hy hx hr).1 hi
        obtain ⟨dx, dy, R, I, T, hdisk, hex⟩ := (d9' y x r hy hx hr).1 hi'
        exact ⟨dx, dy, R, I, T, hdisk, hsv, by rw [hfit y x r hy hx hr hi]; exact hex⟩) (by
        rintro ⟨y, x, r⟩ z ⟨dx, dy, R, I, T, hdisk, hsv, hex⟩
        obtain ⟨hy, hx, hr, -⟩ := id hdisk
        obtain ⟨hi', hz⟩ := huniq y x r hy hx hr dx dy R I T z hdisk hex
        have hi := (hcand y x r hy hx hr).2 ⟨hsv, hi'⟩
        rw [hpar, hflat]
        exact ⟨hy, hx, hr, hi, by rw [hfit y x r hy hx hr hi]; exact hz⟩) num k' hnum with
    ⟨rows, s₄, x1, ps, x2, x3, x4, x5, x6⟩ | ⟨x1, x2, x3⟩
  · left
    refine ⟨rows, s₄, x1, ps, x2, ?_, x4, x5, ?_⟩
    · refine x3.imp ?_
      rintro ⟨y, x, r⟩ row ⟨z, dx', dy', ⟨dx, dy, R, I, T, hdisk, hsv, hex⟩, e1, e2, rfl⟩
      obtain ⟨-, -, -, i1, i2, i3, i4, i5⟩ := id hdisk
      rw [hpar, i1] at e1
      rw [hpar, i2] at e2
      cases e1
      cases e2
      have r1 : s₃.diskRadius = u.diskRadius := by rw [d3, k4, e₁]
      have r2 : s₃.inclination = u.inclination := by rw [d3, k4, e₁]
      have r3 : s₃.tilt = u.tilt := by rw [d3, k4, e₁]
      rw [r1, r2, r3]
      refine ⟨dx, dy, R, I, T, z, rfl, hdisk, hsv, hex, ?_, ?_, ?_⟩
      · rcases at3_remains (y := y) (x := x) (r := r) (Or.inl rfl) (hdk.props .diskRadius) with e | ⟨q, hq, e⟩
        · exact Or.inl e
        · cases hq
          exact Or.inr (e.trans i3)
      · rcases at3_remains (y := y) (x := x) (r := r) (Or.inr (Or.inl rfl)) (hdk.props .inclination) with
          e | ⟨q, hq, e⟩
        · exact Or.inl e
        · cases hq
          exact Or.inr (e.trans i4)
      · rcases at3_remains (y := y) (x := x) (r := r) (Or.inr (Or.inr rfl)) (hdk.props .tilt) with
          e | ⟨q, hq, e⟩
        · exact Or.inl e
        · cases hq
          exact Or.inr (e.trans i5)
    · intro p dx dy R I T z hdisk hsv hex
      exact x6 p z ⟨dx, dy, R, I, T, hdisk, hsv, hex⟩
  · right
    refine ⟨x1, x2, x3.imp id ?_⟩
    intro hps ps hnd hall
    refine hps ps hnd ?_
    intro p hp
    obtain ⟨dx, dy, R, I, T, z, q1, q2, q3⟩ := hall p hp
    exact ⟨z, dx, dy, R, I, T, q1, q2, q3⟩

end

/-- A past that `C114_partial` does not allow: the analysis of one measurement, then the fx map is read with the
default arguments.  The next analysis succeeds, and there is a disk of the new grid that did not survive. -/
theorem C114_any_witness : ∃ (s s₁ s₂ : Shallot ℝ) (ops : List (GridOp ℝ)) (dx dy R I T : ℝ),
    Shallot.new (.int 100) (.bool false) throwAway = (.ok s, s.params) ∧
    GridOp.get .fxMap (.bool true) (.bool true) ∈ ops ∧
    Shallot.setEclipseParameters (.int 1) (.int 1) (.int 0) (runGrid ops s) = (.ok (), s₁) ∧
    addCalls [[probe (1 / 4) 0 1]] s₁ = (.ok (), s₂) ∧ HoldsDisk s (2, 1, 1) dx dy R I T ∧
    ¬ Survives (runGrid ops s) s (2, 1, 1) := by
  obtain ⟨s, s₁, s₂, t₂, t₃, t₄, t₅, dd, m, m', h1, h2, h3, h4, h5, h6, h7, h8, h9, h10, h11⟩ := C114_false_witness
  have hrun : runGrid [.eclipse (.int 1) (.int 1) (.int 0),
      .add (column ([probe 0 (1 / 4) 1].map (·.time))) (column ([probe 0 (1 / 4) 1].map (·.slope)))
        (column ([probe 0 (1 / 4) 1].map (·.error))) (column ([probe 0 (1 / 4) 1].map (·.transmission))),
      .get .fxMap (.bool true) (.bool true)] s = t₃ := by
    have h6' : addCall [probe 0 (1 / 4) 1] s₁ = (.ok (), t₂) := by
      rcases bind_cases (addCall [probe 0 (1 / 4) 1]) (fun _ => addCalls []) s₁ with ⟨u, t, e1, e2⟩ | ⟨e, t, e1, e2⟩
      · have : (addCall [probe 0 (1 / 4) 1] >>= fun _ => addCalls []) s₁ = (.ok (), t₂) := h6
        rw [e2] at this
        cases this
        exact e1
      · have : (addCall [probe 0 (1 / 4) 1] >>= fun _ => addCalls []) s₁ = (.ok (), t₂) := h6
        rw [e2] at this
        cases this
    unfold addCall at h6'
    simp only [runGrid, List.foldl_cons, List.foldl_nil, GridOp.exec, h2, h6', h7]
  have key := fun ops s₁ h₁ s₂ h₂ => C114_any_partial _ _ _ _ _ _ _ _ throwAway throwAway_new 0 1 0 1 2
    (Or.inl ⟨0, .int 0, by simp⟩) (Or.inl ⟨1, .int 1, by simp⟩) (Or.inl ⟨0, .int 0, by simp⟩)
    (Or.inl ⟨1, .int 1, by simp⟩) (Or.inl ⟨2, .int 2, by simp⟩) (fun _ => ⟨le_rfl, le_rfl⟩) _ _ s s.params h1
    ops (.int 1) (.int 1) (.int 0) 1 1 0 (by simpa using int_isNumber (K := ℝ) 1)
    (by simpa using int_isNumber (K := ℝ) 1) (by simpa using int_isNumber (K := ℝ) 0) one_pos one_pos s₁ h₁
    [[probe (1 / 4) 0 1]] (by simp) (by
      intro q hq
      simp only [List.flatten_cons, List.flatten_nil, List.append_nil, List.mem_singleton] at hq
      subst hq
      exact ⟨_, _, _, _, rfl, rfl, rfl, one_pos, rfl, one_pos⟩) s₂ h₂ true
  obtain ⟨hgs, -⟩ := throwAway_level s h1
  have hf : flat s 2 1 1 = 22 := by unfold flat; rw [hgs]; norm_num
  obtain ⟨-, ⟨k1, k2, k3⟩, -⟩ := key [] s₁ h2 s₂ h3
  obtain ⟨-, ⟨l1, l2, l3⟩, -⟩ := key _ t₄ (by rw [hrun]; exact h8) t₅ h9
  rw [h4] at k2
  cases k2
  rw [h10] at l2
  cases l2
  have k4 := k3 2 1 1 (by rw [hgs]; norm_num) (by rw [hgs]; norm_num) (by rw [hgs]; norm_num)
  have l4 := l3 2 1 1 (by rw [hgs]; norm_num) (by rw [hgs]; norm_num) (by rw [hgs]; norm_num)
  rw [hf] at k4 l4
  obtain ⟨-, dx, dy, R, I, T, z, q1, q2⟩ := k4.1 h5
  refine ⟨s, t₄, t₅, _, dx, dy, R, I, T, h1, ?_, by rw [hrun]; exact h8, h9, q1, fun hsv => ?_⟩
  · simp
  · have := l4.2 ⟨hsv, dx, dy, R, I, T, z, q1, q2⟩
    rw [h11] at this
    cases this

end Beyonce
