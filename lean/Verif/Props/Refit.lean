import Verif.Props.Solved

/-!
# C46: the solutions after a new fit

`extract_solutions` erases what it returns from the stored fit.  `determine_gradient_fit` makes the
fit anew from the gradients, which no extraction touches.
-/

set_option linter.unusedSectionVars false

namespace Beyonce
open Spec

section
variable {K : Type} [Field K] [LinearOrder K] [IsStrictOrderedRing K] [RealFns K] [FloorRing K]

/-! ## An extraction leaves the gradients alone -/

/-- The gradients of the two grids are the same, values and masks. -/
def Spec.SameGradients (s s' : Shallot K) : Prop := s'.gradients = s.gradients

theorem sameGradients_pre : Pre (SameGradients (K := K)) :=
  ⟨fun _ => rfl, fun h h' => Eq.trans h' h⟩

local notation "GP" => (sameGradients_pre (K := K))

theorem onProp_same {α : Type} (c : Cube) (m : Meth (GProp K) α) :
    Moves SameGradients (Shallot.onProp c m) := by
  intro s
  unfold Shallot.onProp
  cases s.prop c with
  | none => rfl
  | some p => cases c <;> rfl

theorem getCube_same (c : Cube) (v w : PyVal K) : Moves SameGradients (Shallot.getCube c v w) := by
  unfold Shallot.getCube
  refine Moves.bind GP (onProp_same _ _) fun d => ?_
  refine Moves.bind GP (Moves.lift GP _) fun b => ?_
  cases b
  · exact Moves.pure GP _
  · refine Moves.bind GP (Moves.get GP) fun s => ?_
    exact Moves.bind GP (Moves.lift GP _) fun m => onProp_same _ _

theorem lookup_same (c : Cube) (v : PyVal K) (y x r : ℤ) :
    Moves SameGradients (Shallot.lookup c v y x r) :=
  Moves.bind GP (getCube_same _ _ _) fun _ => Moves.lift GP _

theorem gradientValues_same (y x r : ℤ) : ∀ n k : ℕ,
    Moves SameGradients (Shallot.gradientValues (K := K) (.bool false) y x r n k)
  | 0, k => Moves.pure GP _
  | n + 1, k => by
    unfold Shallot.gradientValues
    refine Moves.bind GP (Moves.get GP) fun s => ?_
    refine Moves.bind GP ?_ fun d => ?_
    · intro s
      unfold Shallot.onGradient
      cases h : (s.gradients.getD [])[k]? with
      | none => rfl
      | some g =>
        show some ((s.gradients.getD []).set k g) = s.gradients
        have h' : (s.gradients.getD []).set k g = s.gradients.getD [] := by
          obtain ⟨hk, rfl⟩ := List.getElem?_eq_some_iff.1 h
          exact List.set_getElem_self hk
        rw [h']
        cases hg : s.gradients with
        | none => rw [hg] at h; simp at h
        | some l => rfl
    · refine Moves.bind GP (Moves.lift GP _) fun _ => ?_
      exact Moves.bind GP (gradientValues_same y x r n (k + 1)) fun _ => Moves.pure GP _

theorem gradientsAt_same (y x r : ℤ) :
    Moves SameGradients (Shallot.gradientsAt (K := K) (.bool false) y x r) := by
  unfold Shallot.gradientsAt
  refine Moves.bind GP (Moves.get GP) fun s => ?_
  cases s.gradients with
  | none => exact Moves.pure GP _
  | some l => exact Moves.bind GP (gradientValues_same _ _ _ _ _) fun _ => Moves.pure GP _

theorem gridPoint_same (y x r : PyVal K) :
    Moves SameGradients (Shallot.gridPoint y x r (.bool false)) := by
  unfold Shallot.gridPoint
  refine Moves.bind GP (Moves.get GP) fun s => ?_
  refine Moves.bind GP (Moves.lift GP _) fun _ => ?_
  refine Moves.bind GP (Moves.lift GP _) fun _ => ?_
  refine Moves.bind GP (Moves.lift GP _) fun _ => ?_
  refine Moves.bind GP (lookup_same _ _ _ _ _) fun _ => ?_
  refine Moves.bind GP (lookup_same _ _ _ _ _) fun _ => ?_
  refine Moves.bind GP (lookup_same _ _ _ _ _) fun _ => ?_
  refine Moves.bind GP (Moves.lift GP _) fun _ => ?_
  refine Moves.bind GP (Moves.lift GP _) fun _ => ?_
  refine Moves.bind GP (Moves.lift GP _) fun _ => ?_
  refine Moves.bind GP (lookup_same _ _ _ _ _) fun _ => ?_
  refine Moves.bind GP (lookup_same _ _ _ _ _) fun _ => ?_
  refine Moves.bind GP (lookup_same _ _ _ _ _) fun _ => ?_
  exact Moves.bind GP (gradientsAt_same _ _ _) fun _ => Moves.pure GP _

theorem solution_same : Moves SameGradients (Shallot.solution (K := K)) := by
  unfold Shallot.solution
  refine Moves.bind GP (Moves.get GP) fun s => ?_
  cases s.gradientFit with
  | none => exact Moves.throw GP _
  | some fit =>
    refine Moves.bind GP (Moves.lift GP _) fun i => ?_
    refine Moves.bind GP (gridPoint_same _ _ _) fun p => ?_
    exact Moves.bind GP (onProp_same _ _) fun _ => Moves.pure GP _

theorem solutionLoop_same : ∀ n : ℕ, Moves SameGradients (Shallot.solutionLoop (K := K) n)
  | 0 => Moves.pure GP _
  | n + 1 => by
    unfold Shallot.solutionLoop
    refine Moves.bind GP solution_same fun _ => ?_
    exact Moves.bind GP (solutionLoop_same n) fun _ => Moves.pure GP _

theorem extractSolutions_same (v : PyVal K) : Moves SameGradients (Shallot.extractSolutions v) := by
  unfold Shallot.extractSolutions
  refine Moves.bind GP (Moves.get GP) fun s => ?_
  refine Moves.bind GP (Moves.lift GP _) fun _ => ?_
  refine Moves.bind GP (Moves.lift GP _) fun _ => ?_
  refine Moves.bind GP ?_ fun _ => solutionLoop_same _
  unfold Shallot.getGradientFit
  refine Moves.bind GP (Moves.get GP) fun s => ?_
  split_ifs
  · exact Moves.pure GP _
  · exact Moves.bind GP (getCube_same _ _ _) fun _ => Moves.pure GP _

/-! ## The best points and their rows are determined -/

theorem better_asymm {v : ℕ → K} {i j : ℕ} (h : Better v i j) (h' : Better v j i) : False := by
  rcases h with h | ⟨h, h2⟩ <;> rcases h' with h' | ⟨h', h2'⟩
  · exact lt_asymm h h'
  · rw [h'] at h; exact lt_irrefl _ h
  · rw [h] at h'; exact lt_irrefl _ h'
  · omega

/-- There is only one list of the `k` best elements, best first. -/
theorem best_unique {v : ℕ → K} {U : Finset ℕ} {is is' : List ℕ} (hlen : is.length = is'.length)
    (hn : is.Nodup) (hn' : is'.Nodup) (hU : ∀ i ∈ is, i ∈ U) (hU' : ∀ i ∈ is', i ∈ U)
    (hp : is.Pairwise (Better v)) (hp' : is'.Pairwise (Better v))
    (hb : ∀ i ∈ is, ∀ j ∈ U, j ∉ is → Better v i j) (hb' : ∀ i ∈ is', ∀ j ∈ U, j ∉ is' → Better v i j) :
    is = is' := by
  have hcard : is.toFinset.card = is'.toFinset.card := by
    rw [List.toFinset_card_of_nodup hn, List.toFinset_card_of_nodup hn', hlen]
  have hsub : is.toFinset ⊆ is'.toFinset := by
    by_contra hno
    obtain ⟨i, hi, hi'⟩ := Finset.not_subset.1 hno
    have hno' : ¬ is'.toFinset ⊆ is.toFinset := by
      intro h
      exact hno (Finset.eq_of_subset_of_card_le h hcard.le).ge
    obtain ⟨j, hj, hj'⟩ := Finset.not_subset.1 hno'
    rw [List.mem_toFinset] at hi hi' hj hj'
    exact better_asymm (hb i hi j (hU' j hj) hj') (hb' j hj i (hU i hi) hi')
  have heq := Finset.eq_of_subset_of_card_le hsub hcard.ge
  have hperm : is.Perm is' := (List.perm_ext_iff_of_nodup hn hn').2 fun i => by
    rw [← List.mem_toFinset, heq, List.mem_toFinset]
  exact hperm.eq_of_pairwise (fun a b _ _ h h' => (better_asymm h h').elim) hp hp'

/-- The row of an element is determined. -/
theorem rowOf_unique {s : Shallot K} {i : ℕ} {row row' : Shallot.Solution K} (h : RowOf s i row)
    (h' : RowOf s i row') (hr : row.rms = row'.rms) : row = row' := by
  obtain ⟨y, x, r, hy, hx, hrr, hf, a1, a2, a3, a4, a5⟩ := h
  obtain ⟨y', x', r', hy', hx', hrr', hf', b1, b2, b3, b4, b5⟩ := h'
  have hu := unravel_flat (y := y) hx hrr
  have hu' := unravel_flat (y := y') hx' hrr'
  unfold flat at hf hf'
  rw [hf] at hu
  rw [hf', hu] at hu'
  obtain ⟨rfl, rfl, rfl⟩ : y = y' ∧ x = x' ∧ r = r' := by simpa using hu'
  obtain ⟨r1, r2, r3, r4, r5, r6⟩ := row
  obtain ⟨q1, q2, q3, q4, q5, q6⟩ := row'
  simp only at hr a1 a2 a3 a4 a5 b1 b2 b3 b4 b5
  rw [a1] at b1
  rw [a2] at b2
  rw [a3] at b3
  rw [a4] at b4
  rw [a5] at b5
  cases b1; cases b2; cases b3; cases b4; cases b5; cases hr
  rfl

theorem rows_unique {s : Shallot K} {v : ℕ → K} : ∀ {is : List ℕ} {rows rows' : List (Shallot.Solution K)},
    List.Forall₂ (fun i row => row.rms = XF.fin (v i) ∧ RowOf s i row) is rows →
    List.Forall₂ (fun i row => row.rms = XF.fin (v i) ∧ RowOf s i row) is rows' → rows = rows'
  | [], _, _, .nil, .nil => rfl
  | i :: is, _, _, .cons h h1, .cons h' h1' => by
    rw [rowOf_unique h.2 h'.2 (h.1.trans h'.1.symm), rows_unique h1 h1']

/-! ## After a new fit -/

/-- The fit is made from the parameters and the gradients alone. -/
theorem determineFit_frame (w : Bool) (s s' u : Shallot K) (hp : s'.params = s.params)
    (hg : s'.gradients = s.gradients) (hne : s.gradients ≠ none)
    (h : Shallot.determineFit w s = (.ok (), u)) :
    Shallot.determineFit w s' = (.ok (), { s' with gradientFit := u.gradientFit }) := by
  obtain ⟨gs, hgs⟩ := Option.ne_none_iff_exists'.1 hne
  unfold Shallot.determineFit at h ⊢
  rw [Meth.get_bind, hgs] at h
  rw [Meth.get_bind, hg, hgs, hp]
  obtain ⟨⟨a, b, c⟩, he⟩ : ∃ g, g = s.params.gridShape := ⟨_, rfl⟩
  simp only [← he] at h ⊢
  cases h1 : Shallot.fitLoop w gs (List.replicate (a * b * c) (.fin 0)) with
  | error e => rw [h1] at h; cases h
  | ok data =>
    rw [h1, Meth.lift_ok_bind] at h
    rw [Meth.lift_ok_bind]
    cases h2 : GProp.new .gradientFit .none (.arr ⟨"float64", [a, b, c], data⟩) s.params with
    | error e => rw [h2] at h; cases h
    | ok p =>
      rw [h2, Meth.lift_ok_bind, Meth.modify_bind] at h
      rw [Meth.lift_ok_bind, Meth.modify_bind]
      have hon : ∀ (z : Shallot K) (m : Meth (GProp K) Unit),
          Shallot.onProp .gradientFit m { z with gradientFit := some p } =
            ((m p).1, { z with gradientFit := some (m p).2 }) := fun _ _ => rfl
      rw [hon] at h ⊢
      injection h with h3 h4
      rw [h3, ← h4]
      simp only [hg, hgs, hp]

/-- **C46, what can be repeated.** Solutions extracted, the fit made anew, solutions extracted: the
rows are those of the first time, and the extraction in between had changed neither the fit that is
made nor its mask. -/
theorem C46_refit (s₀ s : Shallot K) (hs₀ : Sound s₀) (hd : s₀.diagnosticMap ≠ none) (w : Bool)
    (hg : s₀.gradients ≠ none) (hfit : Shallot.determineFit w s₀ = (.ok (), s)) (v : ℕ → K)
    (hv : FitIs s v) (num : PyVal K) (k : ℕ) (ha : AsksFor s num k) (hk : k ≤ (unmasked s).card) :
    ∃ rows s' t s'', Shallot.extractSolutions num s = (.ok rows, s') ∧
      Shallot.determineFit w s' = (.ok (), t) ∧ t.gradientFit = s.gradientFit ∧
      Shallot.extractSolutions num t = (.ok rows, s'') := by
  have hs : Sound s := by
    have := determineFit_sound w s₀ hs₀
    rwa [hfit] at this
  rcases determineFit_cases w s₀ with ⟨h, -⟩ | ⟨gs, hgs, ⟨e, h, -⟩ | ⟨p, data, hdata, hp, hpm, h⟩⟩
  · exact absurd h hg
  · rw [hfit] at h; cases h
  rw [hfit] at h
  have hse : s = { s₀ with gradientFit := some p } := by injection h
  have hds : s.diagnosticMap ≠ none := by rw [hse]; exact hd
  have hsg : s.gradients = some gs := by rw [hse]; exact hgs
  have hsp : s.params = s₀.params := by rw [hse]
  obtain ⟨p₁, hp₁, hv⟩ := hv
  obtain ⟨t', h1, h2, h3⟩ := extract_start s s v [] (.refl hs hds) num k ha hk p₁ hp₁
    (fun i hi => (hv i hi).2) (fun i hi _ => (hv i hi).1) (by simp)
  obtain ⟨is, rows, s', g1, g2, g3, g4, g5, g6, g7, g8, -⟩ := solutionLoop_spec s v k [] t' h2 h3 .nil
    (by simp) (by simpa using hk)
  rw [← h1] at g1
  have hsame : s'.gradients = some gs := by
    have := extractSolutions_same num s
    rw [g1] at this
    exact Eq.trans this hsg
  have hpar : s'.params = s₀.params := g8.params.trans hsp
  have hre := determineFit_frame w s₀ s' s hpar (hsame.trans hgs.symm) hg hfit
  obtain ⟨t, ht⟩ : ∃ t, t = { s' with gradientFit := s.gradientFit } := ⟨_, rfl⟩
  rw [← ht] at hre
  have hdr : Drained s t := by
    have hst := determineFit_sound w s' g8.sound
    rw [hre] at hst
    refine ⟨hst, ?_, ?_, ?_, ?_⟩
    · rw [ht]; exact g8.params
    · rw [ht]; exact g8.masks
    · rw [ht]; exact g8.diagnostic
    · rw [ht]; exact g8.cubes
  have htf : t.gradientFit = s.gradientFit := by rw [ht]
  obtain ⟨t'', k1, k2, k3⟩ := extract_start s t v [] hdr num k ha hk p₁ (htf.trans hp₁)
    (fun i hi => (hv i hi).2) (fun i hi _ => (hv i hi).1) (by simp)
  obtain ⟨is', rows', s'', l1, l2, l3, l4, l5, l6, l7, -, -⟩ := solutionLoop_spec s v k [] t'' k2 k3 .nil
    (by simp) (by simpa using hk)
  have his : is = is' := best_unique (U := unmasked s) (g2.trans l2.symm) g3 l3 (fun i hi => (g4 i hi).1)
    (fun i hi => (l4 i hi).1) g5 l5 (fun i hi j hj hj' => g6 i hi j hj (by simp) hj')
    (fun i hi j hj hj' => l6 i hi j hj (by simp) hj')
  subst his
  obtain rfl := rows_unique g7 l7
  exact ⟨rows, s', t, s'', g1, hre, htf, by rw [k1, l1]⟩

end

/-- The hypotheses of `C46_refit` are met by a grid with one measurement and at least two unmasked
elements: without the new fit the second extraction gives another grid point. -/
example : ∃ (s₀ s s' t s'' s₃ : Shallot ℝ) (v : ℕ → ℝ) (i i' : ℕ) (row row' : Shallot.Solution ℝ),
    Sound s₀ ∧ s₀.gradients ≠ none ∧ FitIs s v ∧
    Shallot.determineFit true s₀ = (.ok (), s) ∧
    Shallot.extractSolutions (.int 1) s = (.ok [row], s') ∧
    Shallot.determineFit true s' = (.ok (), t) ∧
    Shallot.extractSolutions (.int 1) t = (.ok [row], s'') ∧
    Shallot.extractSolutions (.int 1) s' = (.ok [row'], s₃) ∧
    RowOf s i row ∧ RowOf s i' row' ∧ i ≠ i' := by
  obtain ⟨s, s₁, g, k, hs, hr, hg, ho, hk, hdm, h1, hs₁, hgs, hdm₁, hgr, -, -, -, h3, h4, h5⟩ :=
    throwAway_probe 0 0 1 le_rfl (by norm_num) zero_le_one
  obtain ⟨s₂, v, g1, g2, g3, g4, g5⟩ := C45_measured s s₁ hs hr hg [[probe 0 0 1]] (by simp) h1
    (by rintro w hw; rw [ho] at hw; cases hw; exact ⟨k, rfl⟩)
    (by
      intro q hq
      have : q = probe 0 0 1 := by simpa using hq
      subst this
      exact ⟨0, 1, 1, rfl, rfl, one_pos, rfl, one_pos⟩) true
  have hsame : ∃ p, s₂ = { s₁ with gradientFit := some p } := by
    rcases determineFit_cases true s₁ with ⟨h, -⟩ | ⟨gs, -, ⟨e, h, -⟩ | ⟨p, data, -, -, -, h⟩⟩
    · rw [hgr] at h; cases h
    · rw [g1] at h; cases h
    · rw [g1] at h
      exact ⟨p, by injection h⟩
  obtain ⟨p, hp⟩ := hsame
  have hun : unmasked s₂ = unmasked s₁ := by
    ext i
    rw [mem_unmasked, mem_unmasked, hp]
    rfl
  have hcard : 2 ≤ (unmasked s₂).card := by
    have hsub : ({4, 22} : Finset ℕ) ⊆ unmasked s₂ := by
      intro i hi
      simp only [Finset.mem_insert, Finset.mem_singleton] at hi
      obtain ⟨v, hv, hv0, -⟩ := h5 i hi
      rw [hun]
      exact probe_unmasked hgs h3 h4 (by omega) hv (by simpa using hv0)
    exact Finset.card_le_card hsub
  have hd₂ : s₂.diagnosticMap ≠ none := by rw [g3]; exact hdm
  have hd₁ : s₁.diagnosticMap ≠ none := by rw [hp] at hd₂; exact hd₂
  have hne : s₁.gradients ≠ none := by rw [hgr]; simp
  obtain ⟨is, is', rows, rows', s', s₃, k1, k2, k3, k4, k5, -, -, -, k9⟩ :=
    C46_next_partial s₂ g2 hd₂ v g5 (.int 1) (.int 1) 1 1 (Or.inr (.int 1)) (Or.inr (.int 1)) hcard
  obtain ⟨rows₂, s'₂, t, s'', l1, l2, -, l3⟩ := C46_refit s₁ s₂ hs₁ hd₁ true hne g1 v g5 (.int 1) 1
    (Or.inr (.int 1)) (by omega)
  rw [k1] at l1
  cases l1
  obtain ⟨i, rfl⟩ := List.length_eq_one_iff.1 k3
  obtain ⟨i', rfl⟩ := List.length_eq_one_iff.1 k4
  have hlen : rows.length = 1 := by
    obtain ⟨is₀, rows₀, s₀, e1, e2, -, -, -, -, e3⟩ := C45_best_partial s₂ g2 hd₂ v g5 (.int 1) 1
      (Or.inr (.int 1)) (by omega)
    rw [k1] at e1
    cases e1
    rw [← e3.length_eq, e2]
  obtain ⟨row, rfl⟩ := List.length_eq_one_iff.1 hlen
  have hlen' : rows'.length = 1 := by
    have := k9.length_eq
    simp at this
    omega
  obtain ⟨row', rfl⟩ := List.length_eq_one_iff.1 hlen'
  simp only [List.cons_append, List.nil_append, List.forall₂_cons, List.forall₂_nil_left_iff] at k9
  exact ⟨s₁, s₂, s', t, s'', s₃, v, i, i', row, row', hs₁, hne, g5, g1, k1, l2, l3, k2, k9.1.2, k9.2.1.2,
    by simpa using k5⟩

end Beyonce
